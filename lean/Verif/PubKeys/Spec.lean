import Verif.PubKeys.Model
/-!
What a user expects of the public keys of the meters.
-/
namespace Verif.PubKeys

open Verif.Conf16 (Text bytes Write)

/-- The last key the application has set for connector `c`. -/
def lastSet (c : Int) : List Op → Option Text
  | [] => none
  | .set c' key _ :: r => (lastSet c r).orElse (fun _ => if c' = c then some key else none)
  | .restart :: r => lastSet c r

/-- The file with the changes can always be written. -/
def DiskWorks (ops : List Op) : Prop := ∀ c key w, Op.set c key w ∈ ops → w = Write.ok

/-- The application has set a key of an existing connector. -/
def AnySet (n : Nat) (ops : List Op) : Prop := ∃ c key w, Op.set c key w ∈ ops ∧ 1 ≤ c ∧ c ≤ (n : Int)

/-- The keys in the configuration of the application: none at all, or one for each connector at least. -/
def BaseFits (n : Nat) (base : Option (List Text)) : Prop := ∀ l, base = some l → l = [] ∨ n ≤ l.length

/-- The key of connector `c` before the application sets any; no key for this connector: the empty text. -/
def before (base : Option (List Text)) (c : Nat) : Text := (base.getD []).getD (c - 1) []

/-- The name the CSMS uses for the key of connector `k`: MeterPublicKey[k], `k` in decimal. -/
def IsName (t : Text) (k : Nat) : Prop :=
  ∃ ds : Text, ds ≠ [] ∧ (∀ c ∈ ds, c.isDigit = true) ∧ t = "MeterPublicKey[".toList ++ ds ++ "]".toList ∧ ds.foldl (fun a c => 10 * a + (c.toNat - 48)) 0 = k

end Verif.PubKeys
