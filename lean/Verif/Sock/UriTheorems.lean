import Verif.Sock.Uri

/-
C149-C152: the address of the CSMS.
-/
namespace Verif.Sock

/-! ## Specification -/

/-- The schemes an address may have. -/
inductive Scheme
  | ws
  | wss
  | http
  | https
deriving DecidableEq, Repr

/-- The text of a scheme. -/
def Scheme.text : Scheme → Str
  | .ws => ['w', 's', ':', '/', '/']
  | .wss => ['w', 's', 's', ':', '/', '/']
  | .http => ['h', 't', 't', 'p', ':', '/', '/']
  | .https => ['h', 't', 't', 'p', 's', ':', '/', '/']

/-- Whether the scheme asks for TLS. -/
def Scheme.tls : Scheme → Bool
  | .ws | .http => false
  | .wss | .https => true

/-- An address: scheme (optional), host (an IPv6 address in brackets if `v6`), digits of the port (optional), text
behind the slash that ends the authority (optional). -/
structure Url where
  scheme : Option Scheme
  host : Str
  v6 : Bool
  port : Option Str
  path : Option Str
deriving DecidableEq, Repr

/-- The address without its scheme. -/
def Url.body (u : Url) : Str :=
  (if u.v6 then '[' :: u.host ++ [']'] else u.host)
    ++ (match u.port with | some p => ':' :: p | none => [])
    ++ (match u.path with | some p => '/' :: p | none => [])

/-- The text of an address. -/
def Url.text (u : Url) : Str := (match u.scheme with | some s => s.text | none => []) ++ u.body

/-- A well-formed address: there is a host, made of characters that do not delimit it; a port is a non-empty sequence
of digits; without a scheme, `://` does not occur. -/
def Url.WellFormed (u : Url) : Prop :=
  u.host ≠ [] ∧
  (if u.v6 then ']' ∉ u.host else '/' ∉ u.host ∧ ':' ∉ u.host ∧ '[' ∉ u.host) ∧
  (∀ p, u.port = some p → p ≠ [] ∧ ∀ c ∈ p, c.isDigit = true) ∧
  (u.scheme = none → ¬ [':', '/', '/'] <:+: u.text)

/-- The number a sequence of digits stands for. -/
def numberOf (p : Str) : Nat := p.foldl (fun n c => n * 10 + (c.toNat - 48)) 0

/-- The security profiles there are. -/
def KnownProfile (p : Int) : Prop := p = 0 ∨ p = 1 ∨ p = 2 ∨ p = 3

/-- Security profiles 2 and 3 use TLS. -/
def profileTls (p : Int) : Bool := decide (p = 2 ∨ p = 3)

/-- One slash at the end removed. -/
def dropSlash (r : Str) : Str := if r.getLast? = some '/' then r.dropLast else r

/-- The identity is already the last segment of the path, possibly followed by a slash. -/
def NamesStation (id r : Str) : Prop := '/' :: id <:+ '/' :: dropSlash r

/-- The path that is to be requested for the text `r` behind the first slash: the identity is the last segment, added
unless it already is. -/
def wantedPath (id r : Str) [Decidable (NamesStation id r)] : Str :=
  if NamesStation id r then '/' :: dropSlash r
  else if r = [] then '/' :: id
  else '/' :: dropSlash r ++ '/' :: id

instance (id r : Str) : Decidable (NamesStation id r) := inferInstanceAs (Decidable (_ <:+ _))

/-- The connection to be made for an address: refused if the scheme does not fit the security profile or if there is
no such port. -/
def wantedTarget (u : Url) (id : Str) (profile : Int) : Except Err Target :=
  if ∃ s, u.scheme = some s ∧ s.tls ≠ profileTls profile then .error .invalidArgument
  else if ∃ p, u.port = some p ∧ (numberOf p = 0 ∨ numberOf p > 65535) then .error .invalidArgument
  else .ok ⟨profileTls profile, u.host,
    match u.port with | some p => numberOf p | none => if profileTls profile then 443 else 80,
    wantedPath id (u.path.getD [])⟩

/-! ## Lemmas -/

theorem stripPrefix_append (p s : Str) : stripPrefix p (p ++ s) = some s := by
  induction p with
  | nil => rfl
  | cons c r ih => simp [stripPrefix, ih]

theorem stripPrefix_some {p s r : Str} (h : stripPrefix p s = some r) : s = p ++ r := by
  induction p generalizing s with
  | nil => simpa [stripPrefix] using h
  | cons c t ih =>
    cases s with
    | nil => simp [stripPrefix] at h
    | cons d s =>
      simp only [stripPrefix] at h
      split at h
      · rename_i hcd
        rw [hcd, ih h]; rfl
      · cases h

theorem contains_iff (p s : Str) : contains p s = true ↔ p <:+: s := by
  induction s with
  | nil =>
    simp only [contains]
    constructor
    · intro h
      obtain ⟨r, hr⟩ := Option.isSome_iff_exists.1 h
      exact ⟨[], r, by simpa using (stripPrefix_some hr).symm⟩
    · intro h
      have := List.eq_nil_of_infix_nil h
      subst this; rfl
  | cons c s ih =>
    simp only [contains, Bool.or_eq_true]
    constructor
    · rintro (h | h)
      · obtain ⟨r, hr⟩ := Option.isSome_iff_exists.1 h
        exact ⟨[], r, by simpa using (stripPrefix_some hr).symm⟩
      · obtain ⟨a, b, hab⟩ := ih.1 h
        exact ⟨c :: a, b, by simp [← hab]⟩
    · rintro ⟨a, b, hab⟩
      cases a with
      | nil =>
        left
        have : c :: s = p ++ b := by simpa using hab.symm
        rw [this, stripPrefix_append]; rfl
      | cons x a =>
        right
        simp only [List.cons_append, List.cons.injEq] at hab
        exact ih.2 ⟨a, b, hab.2⟩

theorem schemeOf_text (s : Scheme) (c : Char) (r : Str) : schemeOf (s.text ++ c :: r) = some (s.tls, c :: r) := by
  cases s <;> rfl

theorem schemeOf_some {s r : Str} {b : Bool} (h : schemeOf s = some (b, r)) :
    ∃ sc : Scheme, sc.tls = b ∧ s = sc.text ++ r ∧ r ≠ [] := by
  simp only [schemeOf] at h
  split at h
  · rename_i hs; cases h
    exact ⟨.wss, rfl, stripPrefix_some hs, by simp⟩
  · split at h
    · rename_i hs; cases h
      exact ⟨.ws, rfl, stripPrefix_some hs, by simp⟩
    · split at h
      · rename_i hs; cases h
        exact ⟨.http, rfl, stripPrefix_some hs, by simp⟩
      · split at h
        · rename_i hs; cases h
          exact ⟨.https, rfl, stripPrefix_some hs, by simp⟩
        · cases h

theorem takeWhile_stop {p : Char → Bool} (a : Str) (c : Char) (r : Str) (ha : ∀ x ∈ a, p x = true) (hc : p c = false) :
    (a ++ c :: r).takeWhile p = a ∧ (a ++ c :: r).dropWhile p = c :: r := by
  induction a with
  | nil => simp [hc]
  | cons x t ih =>
    have := ih (fun y hy => ha y (List.mem_cons_of_mem x hy))
    simp [ha x (by simp), this]

theorem takeWhile_all {p : Char → Bool} (a : Str) (ha : ∀ x ∈ a, p x = true) :
    a.takeWhile p = a ∧ a.dropWhile p = [] := by
  induction a with
  | nil => simp
  | cons x t ih =>
    have := ih (fun y hy => ha y (List.mem_cons_of_mem x hy))
    simp [ha x (by simp), this]

theorem digit_not_slash {c : Char} (h : c.isDigit = true) : c ≠ '/' := by
  rintro rfl; revert h; decide

theorem afterColon_path (host p : Str) (path : Option Str) (hp : ∀ x ∈ p, x.isDigit = true) :
    afterColon host (p ++ (match path with | some q => '/' :: q | none => [])) = (host, p, path.getD []) := by
  have hn : ∀ x ∈ p, notSlash x = true := by
    intro x hx; simpa [notSlash] using digit_not_slash (hp x hx)
  cases path with
  | none =>
    have h := takeWhile_all p hn
    simp only [List.append_nil, afterColon, h.1, h.2]; rfl
  | some q =>
    have h := takeWhile_stop p '/' q hn (by decide)
    simp only [afterColon, h.1, h.2]; rfl

/-- The authority of a well-formed address. -/
theorem splitAuthority_body (u : Url) (hw : u.WellFormed) :
    splitAuthority u.body = some (u.host, u.port.getD [], u.path.getD []) := by
  obtain ⟨hn, hh, hp, -⟩ := hw
  rcases u with ⟨sc, host, v6, port, path⟩
  dsimp only at *
  cases v6 with
  | true =>
    simp only [if_true] at hh
    have ha : ∀ x ∈ host, notBracket x = true := by
      intro x hx; simp only [notBracket, bne_iff_ne]; rintro rfl; exact hh hx
    have key : ∀ rest, splitAuthority ('[' :: host ++ [']'] ++ rest) = afterBracket host (']' :: rest) := by
      intro rest
      have h := takeWhile_stop host ']' rest ha (by decide)
      simp only [splitAuthority, List.cons_append, List.append_assoc, List.nil_append, List.head?_cons, if_true,
        List.drop_succ_cons, List.drop_zero, h.1, h.2]
    cases port with
    | none =>
      simp only [Url.body, if_true, List.append_nil, Option.getD_none]
      rw [key]
      cases path <;> rfl
    | some p =>
      have := afterColon_path host p path (hp p rfl).2
      simp only [Url.body, if_true, Option.getD_some]
      rw [List.append_assoc, key, ← this]; rfl
  | false =>
    simp only [Bool.false_eq_true, if_false] at hh
    obtain ⟨h1, h2, h3⟩ := hh
    have ha : ∀ x ∈ host, inHost x = true := by
      intro x hx
      simp only [inHost, Bool.and_eq_true, bne_iff_ne]
      exact ⟨fun h => h1 (h ▸ hx), fun h => h2 (h ▸ hx)⟩
    have hc : ∀ rest, (host ++ rest).head? ≠ some '[' := by
      intro rest
      obtain ⟨c, t, rfl⟩ := List.exists_cons_of_ne_nil hn
      simp only [List.cons_append, List.head?_cons, ne_eq, Option.some.injEq]
      rintro rfl; exact h3 (by simp)
    have key : ∀ c rest, inHost c = false → splitAuthority (host ++ c :: rest) = some (afterHost host (c :: rest)) := by
      intro c rest hcc
      have h := takeWhile_stop host c rest ha hcc
      simp only [splitAuthority, hc, if_false, h.1, h.2]
    cases port with
    | none =>
      cases path with
      | none =>
        have h := takeWhile_all host ha
        have hc' := hc []
        rw [List.append_nil] at hc'
        simp only [Url.body, List.append_nil, Bool.false_eq_true, if_false, splitAuthority, hc', h.1, h.2]; rfl
      | some q =>
        simp only [Url.body, List.append_nil, Bool.false_eq_true, if_false]
        rw [key _ _ (by decide)]; rfl
    | some p =>
      have := afterColon_path host p path (hp p rfl).2
      simp only [Url.body, Bool.false_eq_true, if_false, List.append_assoc, List.cons_append]
      rw [key _ _ (by decide), Option.getD_some, ← this]; rfl

theorem leadingDigits_all (p : Str) (h : ∀ c ∈ p, c.isDigit = true) (n : Nat) :
    leadingDigits (some n) p = some (p.foldl (fun n c => n * 10 + (c.toNat - 48)) n) := by
  induction p generalizing n with
  | nil => rfl
  | cons c t ih =>
    rw [leadingDigits, if_pos (h c (by simp)), ih (fun x hx => h x (List.mem_cons_of_mem c hx))]
    rfl

theorem leadingDigits_number (p : Str) (hn : p ≠ []) (h : ∀ c ∈ p, c.isDigit = true) :
    leadingDigits none p = some (numberOf p) := by
  cases p with
  | nil => exact absurd rfl hn
  | cons c t =>
    rw [leadingDigits, if_pos (h c (by simp)), leadingDigits_all t (fun x hx => h x (List.mem_cons_of_mem c hx))]
    rfl

theorem digit_facts {c : Char} (h : c.isDigit = true) : isSpace c = false ∧ c ≠ '-' ∧ c ≠ '+' := by
  refine ⟨?_, ?_, ?_⟩
  · cases hs : isSpace c
    · rfl
    · exfalso
      simp only [isSpace, Bool.or_eq_true, decide_eq_true_eq] at hs
      rcases hs with ((((hs | hs) | hs) | hs) | hs) | hs <;> subst hs <;> revert h <;> decide
  · rintro rfl; revert h; decide
  · rintro rfl; revert h; decide

theorem stoul_digits (p : Str) (hn : p ≠ []) (h : ∀ c ∈ p, c.isDigit = true)
    (hb : numberOf p ≤ 18446744073709551615) : stoul p = .ok (numberOf p) := by
  have hl := leadingDigits_number p hn h
  obtain ⟨c, t, rfl⟩ := List.exists_cons_of_ne_nil hn
  obtain ⟨h1, h2, h3⟩ := digit_facts (h c (by simp))
  have hd : (c :: t).dropWhile isSpace = c :: t := by simp [List.dropWhile, h1]
  simp only [stoul, hd, List.head?_cons, Option.some.injEq, h2, h3, or_self, if_false, hl, false_and]
  rw [if_neg (by omega)]

theorem portFrom_url (u : Url) (hw : u.WellFormed) (secure : Bool)
    (hb : ∀ p, u.port = some p → numberOf p ≤ 18446744073709551615) :
    portFrom secure (u.port.getD []) =
      match u.port with
      | none => .ok (if secure then 443 else 80, true)
      | some p => .ok (numberOf p % 65536, !(decide (numberOf p > 65535) || decide (numberOf p = 0))) := by
  cases hp : u.port with
  | none => simp [portFrom]
  | some p =>
    obtain ⟨h1, h2⟩ := hw.2.2.1 p hp
    simp [portFrom, h1, stoul_digits p h1 h2 (hb p hp)]

theorem body_ne_nil (u : Url) (hw : u.WellFormed) : u.body ≠ [] := by
  have := hw.1
  unfold Url.body
  intro h
  simp only [List.append_eq_nil_iff] at h
  split at h
  · simp at h
  · exact this h.1.1

theorem contains_scheme (s : Scheme) (r : Str) : contains sSep (s.text ++ r) = true := by
  rw [contains_iff]
  cases s
  · exact ⟨['w', 's'], r, rfl⟩
  · exact ⟨['w', 's', 's'], r, rfl⟩
  · exact ⟨['h', 't', 't', 'p'], r, rfl⟩
  · exact ⟨['h', 't', 't', 'p', 's'], r, rfl⟩

theorem evUri_text (s : Scheme) (u : Url) (hw : u.WellFormed)
    (hb : ∀ p, u.port = some p → numberOf p ≤ 18446744073709551615) :
    evUri (s.text ++ u.body) = .ok ⟨s.tls, u.host,
      match u.port with | none => if s.tls then 443 else 80 | some p => numberOf p % 65536,
      '/' :: u.path.getD [],
      match u.port with | none => true | some p => !(decide (numberOf p > 65535) || decide (numberOf p = 0))⟩ := by
  obtain ⟨c, t, hc⟩ := List.exists_cons_of_ne_nil (body_ne_nil u hw)
  have h1 : schemeOf (s.text ++ u.body) = some (s.tls, u.body) := by rw [hc]; exact schemeOf_text s c t
  simp only [evUri, h1, splitAuthority_body u hw, portFrom_url u hw s.tls hb]
  cases u.port <;> rfl

theorem splitLast_eq (a b : Str) (hb : '/' ∉ b) : splitLast (a ++ '/' :: b) = (a ++ ['/'], b) := by
  have h := takeWhile_stop (p := notSlash) b.reverse '/' a.reverse
    (by intro x hx; simp only [List.mem_reverse] at hx; simp only [notSlash, bne_iff_ne]; rintro rfl; exact hb hx)
    (by decide)
  simp only [splitLast, List.reverse_append, List.reverse_cons, List.append_assoc, List.singleton_append, h.1, h.2,
    List.reverse_reverse, List.cons_append, List.nil_append]

/-- Every text behind a slash has a last segment. -/
theorem exists_last_segment (r : Str) : ∃ a b, '/' :: r = a ++ '/' :: b ∧ '/' ∉ b := by
  induction r with
  | nil => exact ⟨[], [], rfl, by simp⟩
  | cons c t ih =>
    obtain ⟨a, b, hab, hb⟩ := ih
    cases a with
    | nil =>
      have ht : t = b := by simpa using hab
      subst ht
      by_cases hc : c = '/'
      · exact ⟨['/'], t, by simp [hc], hb⟩
      · exact ⟨[], c :: t, rfl, by simp [Ne.symm hc, hb]⟩
    | cons x a =>
      simp only [List.cons_append, List.cons.injEq] at hab
      exact ⟨'/' :: c :: a, b, by simp [hab.2], hb⟩

theorem suffix_segment (id a b : Str) (hid : '/' ∉ id) (hb : '/' ∉ b) :
    '/' :: id <:+ a ++ '/' :: b ↔ b = id := by
  constructor
  · rintro ⟨t, ht⟩
    have h1 := splitLast_eq t id hid
    have h2 := splitLast_eq a b hb
    rw [ht, h2] at h1
    exact (Prod.mk.inj h1).2
  · rintro rfl
    exact ⟨a, rfl⟩

/-- The path of the code is the wanted one, unless the identity is followed by a slash. -/
theorem path_wanted (id r : Str) (hid : '/' ∉ id) (hne : id ≠ [])
    (hs : r.getLast? = some '/' → ¬ NamesStation id r) :
    (let path := if (pathSplit ('/' :: r)).2 = id then (pathSplit ('/' :: r)).1 else '/' :: r
     (if path.getLast? = some '/' then path else path ++ ['/']) ++ id) = wantedPath id r := by
  by_cases hr : r = []
  · subst hr
    have : ¬ NamesStation id [] := by
      intro h
      have := h.length_le
      simp [dropSlash] at this
      exact hne this
    simp [pathSplit, wantedPath, this]
  · by_cases hl : r.getLast? = some '/'
    · have hl' : ('/' :: r).getLast? = some '/' := by
        rw [List.getLast?_cons]; simp [hl]
      have h1 : pathSplit ('/' :: r) = (('/' :: r).dropLast, []) := by
        simp [pathSplit, hr, hl']
      rw [h1]
      simp only [if_neg (Ne.symm hne), hl', if_true]
      rw [wantedPath, if_neg (hs hl), if_neg hr]
      have hd : r = r.dropLast ++ ['/'] := by
        obtain ⟨ys, hy⟩ := List.getLast?_eq_some_iff.1 hl
        rw [hy]; simp
      simp only [dropSlash, hl, if_true]
      conv => lhs; rw [hd]
      simp
    · have hl' : ('/' :: r).getLast? ≠ some '/' := by
        obtain ⟨x, t, ht⟩ := List.exists_cons_of_ne_nil hr
        rw [List.getLast?_cons]
        cases hg : r.getLast? with
        | none => simp [List.getLast?_eq_none_iff, hr] at hg
        | some y =>
          rw [hg] at hl
          simpa using hl
      obtain ⟨a, b, hab, hb⟩ := exists_last_segment r
      have h1 : pathSplit ('/' :: r) = (a ++ ['/'], b) := by
        rw [pathSplit, if_neg (by simp [hr]), if_neg hl', hab, splitLast_eq a b hb]
      have hd : dropSlash r = r := by simp [dropSlash, hl]
      rw [h1]
      by_cases hbi : b = id
      · have hn : NamesStation id r := by
          unfold NamesStation
          rw [hd, hab]; exact (suffix_segment id a b hid hb).2 hbi
        simp only [hbi, if_true, List.getLast?_append, List.getLast?_singleton, Option.some_or]
        rw [wantedPath, if_pos hn, hd, hab, hbi]; simp
      · have hn : ¬ NamesStation id r := by
          unfold NamesStation
          rw [hd, hab]; exact fun h => hbi ((suffix_segment id a b hid hb).1 h)
        simp only [hbi, if_false, hl']
        rw [wantedPath, if_neg hn, if_neg hr, hd]; simp


/-- What the parser says about an accepted address. -/
theorem parse_ok {uri id : Str} {profile : Int} {u : Uri} (h : parseAndValidate uri id profile = .ok u) :
    ∃ t, evUri (if contains sSep uri then uri else (if profile ≥ 2 then sWss else sWs) ++ uri) = .ok t ∧
      t.valid = true ∧ u.secure = t.secure ∧ u.host = t.host ∧ u.port = t.port ∧ u.id = id ∧
      u.path.getLast? = some '/' ∧
      (contains sSep uri = true → (t.secure = true ↔ profile ≥ 2) ∧ KnownProfile profile) := by
  unfold parseAndValidate at h
  split at h
  · cases h
  split at h
  · cases h
  have hc : (if (!contains sSep uri) = true then (if profile ≥ 2 then sWss else sWs) ++ uri else uri) =
      (if contains sSep uri then uri else (if profile ≥ 2 then sWss else sWs) ++ uri) := by
    cases contains sSep uri <;> rfl
  simp only [hc] at h
  split at h
  · cases h
  rename_i t ht
  split at h
  · cases h
  rename_i hv
  split at h
  · cases h
  rename_i h1
  split at h
  · cases h
  rename_i h2
  split at h
  · cases h
  rename_i h3
  cases h
  refine ⟨t, ht, by simpa using hv, rfl, rfl, rfl, rfl, ?_, ?_⟩
  · dsimp only
    generalize (if (pathSplit t.resource).2 = id then (pathSplit t.resource).1 else t.resource) = q
    by_cases hq : q.getLast? = some '/'
    · rw [if_pos hq]; exact hq
    · rw [if_neg hq]; simp
  · intro hcc
    rw [hcc] at h1 h2 h3
    have h3' : KnownProfile profile := by
      unfold KnownProfile
      by_cases a0 : profile = 0
      · omega
      by_cases a1 : profile = 1
      · omega
      by_cases a2 : profile = 2
      · omega
      by_cases a3 : profile = 3
      · omega
      simp [a0, a1, a2, a3] at h3
    refine ⟨?_, h3'⟩
    unfold KnownProfile at h3'
    cases hs : t.secure <;> rw [hs] at h1 h2 <;> rcases h3' with rfl | rfl | rfl | rfl <;> simp at h1 h2 ⊢

theorem evUri_valid {s : Str} {t : EvUri} (h : evUri s = .ok t) (hv : t.valid = true) :
    ∃ sc : Scheme, sc.tls = t.secure ∧ sc.text <+: s ∧ 1 ≤ t.port ∧ t.port ≤ 65535 ∧ t.resource.head? = some '/' := by
  unfold evUri at h
  split at h
  · cases h; simp at hv
  · rename_i secure r hs
    obtain ⟨sc, h1, h2, -⟩ := schemeOf_some hs
    split at h
    · cases h; simp at hv
    · split at h
      · cases h
      · rename_i p v hp
        cases h
        refine ⟨sc, h1, ⟨r, h2.symm⟩, ?_⟩
        unfold portFrom at hp
        split at hp
        · cases hp; cases secure <;> simp
        · split at hp
          · cases hp
          · cases hp
            simp only [Bool.not_eq_true', Bool.or_eq_false_iff, decide_eq_false_iff_not] at hv
            dsimp only
            simp only [List.head?_cons, and_true]
            omega

theorem scheme_unique {a b : Scheme} {s : Str} (ha : a.text <+: s) (hb : b.text <+: s) : a = b := by
  have h : a.text <+: b.text ∨ b.text <+: a.text := List.prefix_or_prefix_of_prefix ha hb
  revert h
  cases a <;> cases b <;> decide

/-! ## Property theorems -/

instance exceptEq {α β : Type} [DecidableEq α] [DecidableEq β] : DecidableEq (Except α β)
  | .ok a, .ok b => if h : a = b then isTrue (by rw [h]) else isFalse (by simpa using h)
  | .error a, .error b => if h : a = b then isTrue (by rw [h]) else isFalse (by simpa using h)
  | .ok _, .error _ => isFalse (by simp)
  | .error _, .ok _ => isFalse (by simp)

/-- C149.  Whatever the address, the identity and the security profile are: a connection is only made with a known
security profile, it uses TLS exactly if that profile demands it, and never if the scheme of the address says
otherwise; the port is a real one, and the requested path ends with a slash and the identity. -/
theorem C149_tls (uri id : Str) (profile : Int) (t : Target) (h : target uri id profile = .ok t) :
    KnownProfile profile ∧ t.tls = profileTls profile ∧ (∀ s : Scheme, s.text <+: uri → s.tls = t.tls) ∧
      1 ≤ t.port ∧ t.port ≤ 65535 ∧ '/' :: id <:+ t.path := by
  unfold target at h
  split at h
  · cases h
  rename_i u hu
  split at h
  · rename_i hk
    cases h
    obtain ⟨e, he, hv, hs, hh, hp, hid, hl, hc⟩ := parse_ok hu
    obtain ⟨sc, h1, h2, h3, h4, -⟩ := evUri_valid he hv
    refine ⟨hk, rfl, ?_, by rw [hp]; exact h3, by rw [hp]; exact h4, ?_⟩
    · intro s hs'
      obtain ⟨r, hr⟩ := hs'
      have hcc : contains sSep uri = true := by rw [← hr]; exact contains_scheme s r
      rw [if_pos hcc] at h2
      have := scheme_unique ⟨r, hr⟩ h2
      subst this
      rw [h1]
      have hprof := (hc hcc).1
      dsimp only
      cases hsec : e.secure
      · rw [hsec] at hprof
        simp only [Bool.false_eq_true, false_iff] at hprof
        exact (decide_eq_false (by omega)).symm
      · rw [hsec] at hprof
        simp only [true_iff] at hprof
        exact (decide_eq_true (by omega)).symm
    · obtain ⟨ys, hy⟩ := List.getLast?_eq_some_iff.1 hl
      dsimp only
      rw [hy, hid]
      exact ⟨ys, by simp⟩
  · cases h

/-- C149.  An address whose scheme contradicts the security profile is refused. -/
theorem C149_mismatch (uri id : Str) (profile : Int) (s : Scheme) (hs : s.text <+: uri)
    (hm : s.tls ≠ profileTls profile) : ∃ e, target uri id profile = .error e := by
  cases h : target uri id profile with
  | error e => exact ⟨e, rfl⟩
  | ok t =>
    obtain ⟨-, h2, h3, -⟩ := C149_tls uri id profile t h
    exact absurd ((h3 s hs).trans h2) hm

example : target "wss://csms.org:9000/ocpp".toList "cp1".toList 3 =
    .ok ⟨true, "csms.org".toList, 9000, "/ocpp/cp1".toList⟩ := by decide +kernel

example : Scheme.text .ws <+: "ws://csms.org/ocpp".toList ∧ Scheme.tls .ws ≠ profileTls 2 ∧
    target "ws://csms.org/ocpp".toList "cp1".toList 2 = .error .invalidArgument := by decide +kernel

theorem target_url (u : Url) (id : Str) (profile : Int) (hw : u.WellFormed) (hid : '/' ∉ id) (hne : id ≠ [])
    (hk : KnownProfile profile)
    (hb : ∀ p, u.port = some p → numberOf p ≤ 18446744073709551615)
    (hs : ∀ r, u.path = some r → r.getLast? = some '/' → ¬ NamesStation id r) :
    target u.text id profile = wantedTarget u id profile := by
  have hpath := path_wanted id (u.path.getD []) hid hne (by
    cases hp : u.path with
    | none => simp
    | some r => exact hs r hp)
  obtain ⟨sc, hsc, hadd⟩ : ∃ sc : Scheme,
      (if (!contains sSep u.text) = true then (if profile ≥ 2 then sWss else sWs) ++ u.text else u.text) =
        sc.text ++ u.body ∧
      (if contains sSep u.text then u.scheme = some sc else u.scheme = none ∧ sc.tls = profileTls profile) := by
    cases hu : u.scheme with
    | some s =>
      have hc : contains sSep u.text = true := by
        unfold Url.text; rw [hu]; exact contains_scheme s u.body
      refine ⟨s, ?_, ?_⟩
      · rw [hc]; unfold Url.text; rw [hu]; rfl
      · rw [hc]; simp
    | none =>
      have hc : contains sSep u.text = false := by
        have := hw.2.2.2 hu
        rw [← Bool.not_eq_true, contains_iff]; exact this
      have ht : u.text = u.body := by unfold Url.text; rw [hu]; rfl
      refine ⟨if profile ≥ 2 then .wss else .ws, ?_, ?_⟩
      · rw [hc, ht]
        by_cases hp : profile ≥ 2
        · simp only [if_pos hp]; rfl
        · simp only [if_neg hp]; rfl
      · rw [hc]
        simp only [Bool.false_eq_true, if_false, true_and]
        unfold KnownProfile at hk
        unfold profileTls
        split
        · exact (decide_eq_true (by omega)).symm
        · exact (decide_eq_false (by omega)).symm
  have htext : u.text ≠ [] := by
    intro h
    unfold Url.text at h
    simp only [List.append_eq_nil_iff] at h
    exact body_ne_nil u hw h.2
  unfold target parseAndValidate
  rw [if_neg htext, if_neg hne]
  simp only [hsc, evUri_text sc u hw hb]
  by_cases hport : ∃ p, u.port = some p ∧ (numberOf p = 0 ∨ numberOf p > 65535)
  · obtain ⟨p, hp, hp'⟩ := hport
    have hr : wantedTarget u id profile = .error .invalidArgument := by
      unfold wantedTarget
      split
      · rfl
      · rw [if_pos ⟨p, hp, hp'⟩]
    have hb' : (decide (numberOf p > 65535) || decide (numberOf p = 0)) = true := by
      simp only [Bool.or_eq_true, decide_eq_true_eq]; omega
    simp [hp, hb', hr]
  · have hvalid : (match u.port with
        | none => true
        | some p => !(decide (numberOf p > 65535) || decide (numberOf p = 0))) = true := by
      cases hp : u.port with
      | none => rfl
      | some p =>
        have : ¬ (numberOf p = 0 ∨ numberOf p > 65535) := fun h => hport ⟨p, hp, h⟩
        simp only [Bool.not_eq_true', Bool.or_eq_false_iff, decide_eq_false_iff_not]
        omega
    have hpn : (match u.port with | none => if sc.tls then 443 else 80 | some p => numberOf p % 65536) =
        (match u.port with | some p => numberOf p | none => if sc.tls then 443 else 80) := by
      cases hp : u.port with
      | none => rfl
      | some p =>
        have : ¬ (numberOf p = 0 ∨ numberOf p > 65535) := fun h => hport ⟨p, hp, h⟩
        show numberOf p % 65536 = numberOf p
        omega
    rw [hvalid, hpn]
    simp only [Bool.not_true, Bool.false_eq_true, if_false]
    by_cases hm : ∃ s, u.scheme = some s ∧ s.tls ≠ profileTls profile
    · have hr : wantedTarget u id profile = .error .invalidArgument := by
        unfold wantedTarget; rw [if_pos hm]
      obtain ⟨s, hu, hne'⟩ := hm
      have hc : contains sSep u.text = true := by
        unfold Url.text; rw [hu]; exact contains_scheme s u.body
      rw [hc] at hadd
      simp only [if_true] at hadd
      have : sc = s := by rw [hu] at hadd; cases hadd; rfl
      subst this
      rw [hr, hc]
      unfold KnownProfile at hk
      unfold profileTls at hne'
      cases htls : sc.tls
      · rw [htls] at hne'
        have h23 : profile = 2 ∨ profile = 3 := by
          by_cases h2 : profile = 2
          · exact Or.inl h2
          · exact Or.inr (by simpa [h2] using hne')
        rcases h23 with rfl | rfl <;> simp
      · rw [htls] at hne'
        have h01 : profile = 0 ∨ profile = 1 := by
          have h23 : ¬ (profile = 2 ∨ profile = 3) := fun h => hne' (decide_eq_true h).symm
          omega
        rcases h01 with rfl | rfl <;> simp
    · have htls : sc.tls = profileTls profile := by
        cases hc : contains sSep u.text
        · rw [hc] at hadd; simp only [Bool.false_eq_true, if_false] at hadd; exact hadd.2
        · rw [hc] at hadd; simp only [if_true] at hadd
          by_cases he : sc.tls = profileTls profile
          · exact he
          · exact absurd ⟨sc, hadd, he⟩ hm
      have hr : wantedTarget u id profile = .ok ⟨profileTls profile, u.host,
          (match u.port with | some p => numberOf p | none => if profileTls profile then 443 else 80),
          wantedPath id (u.path.getD [])⟩ := by
        unfold wantedTarget; rw [if_neg hm, if_neg hport]
      rw [hr, ← hpath, htls]
      have hk' := hk
      unfold KnownProfile at hk'
      rcases hk' with rfl | rfl | rfl | rfl <;> simp [profileTls]

/-- C150.  A well-formed address with a known security profile leads to its host (IPv6 without the brackets), its port
or the default port of the transport, and its path, to which the identity is added unless it is its last segment; it is
refused if the scheme contradicts the profile or the port is not between 1 and 65535.  Partial: the identity is not
followed by a slash (`C150_violated`), the port is below 2^64 (`C151_violated`) and the identity contains no slash. -/
theorem C150_target_partial (u : Url) (id : Str) (profile : Int) (hw : u.WellFormed) (hid : '/' ∉ id) (hne : id ≠ [])
    (hk : KnownProfile profile)
    (hb : ∀ p, u.port = some p → numberOf p < 2 ^ 64)
    (hs : ∀ r, u.path = some r → r.getLast? = some '/' → ¬ NamesStation id r) :
    target u.text id profile = wantedTarget u id profile :=
  target_url u id profile hw hid hne hk (fun p hp => by have := hb p hp; omega) hs

/-- An IPv6 address with port, path and identity. -/
def exUrl : Url := ⟨some .wss, "2001:db8::1".toList, true, some "8443".toList, some "ocpp/cp1".toList⟩

example : exUrl.WellFormed ∧ '/' ∉ "cp1".toList ∧
    target exUrl.text "cp1".toList 2 = .ok ⟨true, "2001:db8::1".toList, 8443, "/ocpp/cp1".toList⟩ := by
  refine ⟨⟨by decide +kernel, by decide +kernel, ?_, by decide⟩, by decide +kernel, by decide +kernel⟩
  intro p hp
  simp only [exUrl, Option.some.injEq] at hp
  subst hp
  decide +kernel

/-- C150 is violated by an address that ends with the identity and a slash: the identity is added again, and the station
asks for the resource `/cp1/cp1` instead of `/cp1`. -/
theorem C150_violated :
    (⟨some .ws, "csms".toList, false, none, some "cp1/".toList⟩ : Url).WellFormed ∧
    target "ws://csms/cp1/".toList "cp1".toList 1 = .ok ⟨false, "csms".toList, 80, "/cp1/cp1".toList⟩ ∧
    wantedTarget ⟨some .ws, "csms".toList, false, none, some "cp1/".toList⟩ "cp1".toList 1 =
      .ok ⟨false, "csms".toList, 80, "/cp1".toList⟩ := by
  refine ⟨⟨by decide +kernel, by decide +kernel, by simp, by decide⟩, by decide +kernel, by decide +kernel⟩

/-- C150 is violated by addresses that are not well-formed and are accepted: without a host, with characters behind the
digits of the port, and with a negative port, which wraps around. -/
theorem C150_malformed_violated :
    target "ws:///ocpp".toList "cp1".toList 1 = .ok ⟨false, [], 80, "/ocpp/cp1".toList⟩ ∧
    target "ws://csms:80x0/".toList "cp1".toList 1 = .ok ⟨false, "csms".toList, 80, "/cp1".toList⟩ ∧
    target "ws://csms:-18446744073709551535/".toList "cp1".toList 1 =
      .ok ⟨false, "csms".toList, 81, "/cp1".toList⟩ := by
  decide +kernel

/-! ### C151 -/

theorem leadingDigits_bound (s : Str) (acc : Option Nat) (n : Nat) (h : leadingDigits acc s = some n) :
    ∃ d r, s = d ++ r ∧ (∀ c ∈ d, c.isDigit = true) ∧ n < (acc.getD 0 + 1) * 10 ^ d.length := by
  induction s generalizing acc with
  | nil =>
    simp only [leadingDigits] at h
    exact ⟨[], [], rfl, by simp, by simp [h]⟩
  | cons c t ih =>
    rw [leadingDigits] at h
    split at h
    · rename_i hc
      obtain ⟨d, r, hdr, hd, hn⟩ := ih _ h
      refine ⟨c :: d, r, by rw [hdr]; rfl, ?_, ?_⟩
      · intro x hx
        simp only [List.mem_cons] at hx
        rcases hx with rfl | hx
        · exact hc
        · exact hd x hx
      · have h9 : c.toNat - 48 ≤ 9 := by
          simp only [Char.isDigit, Bool.and_eq_true, decide_eq_true_eq] at hc
          have := hc.2
          have h57 : c.toNat ≤ 57 := by simpa using UInt32.le_iff_toNat_le.1 this
          omega
        simp only [Option.getD_some] at hn
        simp only [List.length_cons, Nat.pow_succ]
        have hle : (acc.getD 0 * 10 + (c.toNat - 48) + 1) * 10 ^ d.length ≤
            ((acc.getD 0 + 1) * 10) * 10 ^ d.length := Nat.mul_le_mul_right _ (by omega)
        calc n < _ := hn
          _ ≤ _ := hle
          _ = _ := by rw [Nat.mul_assoc, Nat.mul_comm 10]
    · exact ⟨[], c :: t, rfl, by simp, by simp [h]⟩

theorem stoul_range {s : Str} (h : ∀ d, d <:+: s → (∀ c ∈ d, c.isDigit = true) → d.length ≤ 19) :
    stoul s ≠ .error .outOfRange := by
  intro he
  unfold stoul at he
  have hsub : ∀ t : Str, t <:+ s → ∀ d r, t = d ++ r → (∀ c ∈ d, c.isDigit = true) → d.length ≤ 19 := by
    intro t ht d r hdr hd
    refine h d ?_ hd
    obtain ⟨q, hq⟩ := ht
    exact ⟨q, r, by rw [← hq, hdr]; simp⟩
  have hsuf : (if (s.dropWhile isSpace).head? = some '-' ∨ (s.dropWhile isSpace).head? = some '+' then
      (s.dropWhile isSpace).drop 1 else s.dropWhile isSpace) <:+ s := by
    split
    · exact (List.drop_suffix 1 _).trans (List.dropWhile_suffix _)
    · exact List.dropWhile_suffix _
  simp only at he
  generalize (if (s.dropWhile isSpace).head? = some '-' ∨ (s.dropWhile isSpace).head? = some '+' then
      (s.dropWhile isSpace).drop 1 else s.dropWhile isSpace) = u at he hsuf
  split at he
  · cases he
  · rename_i n hn
    split at he
    · rename_i hbig
      obtain ⟨d, r, hdr, hd, hlt⟩ := leadingDigits_bound u none n hn
      have hl := hsub u hsuf d r hdr hd
      have : 10 ^ d.length ≤ 10 ^ 19 := Nat.pow_le_pow_right (by decide) hl
      simp only [Option.getD_none, Nat.zero_add, Nat.one_mul] at hlt
      omega
    · cases he

/-- The text of the port is part of the address. -/
theorem port_infix {s host port rest : Str} (h : splitAuthority s = some (host, port, rest)) : port <:+: s := by
  have hcolon : ∀ (hst r : Str), r.takeWhile notSlash <:+: r := fun _ r => (List.takeWhile_prefix _).isInfix
  unfold splitAuthority at h
  split at h
  · have hd : (s.drop 1).dropWhile notBracket <:+ s :=
      (List.dropWhile_suffix _).trans (List.drop_suffix 1 s)
    generalize (s.drop 1).dropWhile notBracket = r at h hd
    unfold afterBracket at h
    split at h
    · cases h; exact List.nil_infix
    · cases h; exact List.nil_infix
    · rename_i x q
      simp only [afterColon, Option.some.injEq, Prod.mk.injEq] at h
      rw [← h.2.1]
      refine (hcolon host q).trans (List.IsInfix.trans ?_ hd.isInfix)
      exact ⟨[x, ':'], [], by simp⟩
    · cases h
  · have hd : s.dropWhile inHost <:+ s := List.dropWhile_suffix _
    generalize s.dropWhile inHost = r at h hd
    simp only [Option.some.injEq] at h
    unfold afterHost at h
    split at h
    · cases h; exact List.nil_infix
    · cases h; exact List.nil_infix
    · rename_i x q _
      simp only [afterColon, Prod.mk.injEq] at h
      rw [← h.2.1]
      refine (hcolon host q).trans (List.IsInfix.trans ?_ hd.isInfix)
      exact ⟨[x], [], by simp⟩

theorem evUri_range {s : Str} (h : ∀ d, d <:+: s → (∀ c ∈ d, c.isDigit = true) → d.length ≤ 19) :
    evUri s ≠ .error .outOfRange := by
  intro he
  unfold evUri at he
  split at he
  · cases he
  · rename_i secure r hs
    obtain ⟨sc, -, hr, -⟩ := schemeOf_some hs
    split at he
    · cases he
    · rename_i host port rest ha
      have hp : port <:+: s := (port_infix ha).trans ⟨sc.text, [], by rw [hr]; simp⟩
      split at he
      · rename_i e hpe
        cases he
        unfold portFrom at hpe
        split at hpe
        · cases hpe
        · split at hpe
          · rename_i e' hst
            cases hpe
            exact stoul_range (fun d hd => h d (hd.trans hp)) hst
          · cases hpe
      · cases he

/-- A run of digits behind a scheme lies in the address. -/
theorem digits_infix {p s d : Str} (hd : d <:+: p ++ s) (hdig : ∀ c ∈ d, c.isDigit = true)
    (hp : ∀ c ∈ p, c.isDigit = false) : d <:+: s := by
  induction p with
  | nil => simpa using hd
  | cons c t ih =>
    have hdc : d <:+: t ++ s := by
      obtain ⟨a, b, hab⟩ := hd
      cases a with
      | nil =>
        cases d with
        | nil => exact List.nil_infix
        | cons x d' =>
          simp only [List.nil_append, List.cons_append, List.cons.injEq] at hab
          have h1 := hdig x (by simp)
          rw [hab.1, hp c (by simp)] at h1
          cases h1
      | cons x a =>
        simp only [List.cons_append, List.cons.injEq] at hab
        exact ⟨a, b, hab.2⟩
    exact ih hdc (fun x hx => hp x (List.mem_cons_of_mem c hx))

/-- C151.  Any address, also a malformed one, is either accepted or refused with `std::invalid_argument`.  Partial: it
has no run of twenty digits (`C151_violated`). -/
theorem C151_refusal_partial (uri id : Str) (profile : Int)
    (h : ∀ d, d <:+: uri → (∀ c ∈ d, c.isDigit = true) → d.length < 20) :
    (∃ t, target uri id profile = .ok t) ∨ target uri id profile = .error .invalidArgument := by
  have key : ∀ e, parseAndValidate uri id profile = .error e → e = .invalidArgument := by
    intro e he
    unfold parseAndValidate at he
    split at he
    · cases he; rfl
    split at he
    · cases he; rfl
    simp only at he
    have hinf : ∀ d, d <:+: (if (!contains sSep uri) = true then (if profile ≥ 2 then sWss else sWs) ++ uri else uri) →
        (∀ c ∈ d, c.isDigit = true) → d.length ≤ 19 := by
      intro d hd hdig
      split at hd
      · have : d <:+: uri := by
          refine digits_infix hd hdig ?_
          split <;> decide
        have := h d this hdig
        omega
      · have := h d hd hdig
        omega
    split at he
    · rename_i e' he'
      cases he
      cases e with
      | invalidArgument => rfl
      | outOfRange => exact absurd he' (evUri_range hinf)
    · split at he
      · cases he; rfl
      · split at he
        · cases he; rfl
        · split at he
          · cases he; rfl
          · split at he
            · cases he; rfl
            · cases he
  unfold target
  cases hp : parseAndValidate uri id profile with
  | error e => right; rw [key e hp]
  | ok u =>
    dsimp only
    split
    · exact Or.inl ⟨_, rfl⟩
    · exact Or.inr rfl

example : target "ws://csms:http/".toList "cp1".toList 1 = .error .invalidArgument := by decide +kernel

/-- C151 is violated by a port with twenty digits: `std::out_of_range` leaves the function, which its callers do not
expect (`connectivity_manager.cpp` l.375 catches `std::invalid_argument`). -/
theorem C151_violated : target "ws://csms:99999999999999999999/".toList "cp1".toList 1 = .error .outOfRange := by
  decide +kernel

/-! ### C152 -/

theorem numberOf_append (a : Str) (c : Char) : numberOf (a ++ [c]) = numberOf a * 10 + (c.toNat - 48) := by
  simp [numberOf, List.foldl_append]

theorem digitChar : ∀ n, n < 10 → (Char.ofNat (48 + n)).isDigit = true ∧ (Char.ofNat (48 + n)).toNat - 48 = n := by
  decide +kernel

theorem decimal_spec (fuel n : Nat) (h : n < 10 ^ fuel) (hf : fuel ≠ 0) :
    decimal fuel n ≠ [] ∧ (∀ c ∈ decimal fuel n, c.isDigit = true) ∧ numberOf (decimal fuel n) = n := by
  induction fuel generalizing n with
  | zero => exact absurd rfl hf
  | succ f ih =>
    rw [decimal]
    split
    · rename_i hn
      obtain ⟨h1, h2⟩ := digitChar n hn
      refine ⟨by simp, ?_, ?_⟩
      · intro c hc; simp only [List.mem_singleton] at hc; subst hc; exact h1
      · simp only [numberOf, List.foldl_cons, List.foldl_nil]; omega
    · rename_i hn
      have hf0 : f ≠ 0 := by
        rintro rfl
        simp at h; omega
      have hdiv : n / 10 < 10 ^ f := by
        rw [Nat.pow_succ] at h
        exact Nat.div_lt_of_lt_mul (by rw [Nat.mul_comm]; exact h)
      obtain ⟨h1, h2, h3⟩ := ih (n / 10) hdiv hf0
      obtain ⟨d1, d2⟩ := digitChar (n % 10) (by omega)
      refine ⟨by simp, ?_, ?_⟩
      · intro c hc
        simp only [List.mem_append, List.mem_singleton] at hc
        rcases hc with hc | rfl
        · exact h2 c hc
        · exact d1
      · rw [numberOf_append, h3, d2]; omega

/-- The address that `Uri::string` gives is made of the parts of the target. -/
theorem string_url {uri id : Str} {profile : Int} {u : Uri} (h : parseAndValidate uri id profile = .ok u) :
    ∃ r, u.path = '/' :: r ∧ u.string = Url.text
      ⟨some (if u.secure then .wss else .ws), u.host, false,
        if u.port = (if u.secure then 443 else 80) then none else some (decimal 5 u.port), some (r ++ u.id)⟩ := by
  have hh : u.path.head? = some '/' := by
    unfold parseAndValidate at h
    split at h
    · cases h
    split at h
    · cases h
    rename_i hidne
    simp only at h
    split at h
    · cases h
    rename_i t ht
    split at h
    · cases h
    rename_i hv
    split at h
    · cases h
    split at h
    · cases h
    split at h
    · cases h
    obtain ⟨-, -, -, -, -, hres⟩ := evUri_valid ht (by simpa using hv)
    obtain ⟨r, hr⟩ : ∃ r, t.resource = '/' :: r := by
      cases hc : t.resource with
      | nil => rw [hc] at hres; simp at hres
      | cons x r => rw [hc] at hres; simp at hres; exact ⟨r, by rw [hres]⟩
    have hsplit : (pathSplit t.resource).2 = id → (pathSplit t.resource).1.head? = some '/' := by
      intro hid
      rw [hr] at hid ⊢
      unfold pathSplit at hid ⊢
      split at hid
      · rename_i h1; rw [if_pos h1]; rfl
      · rename_i h1
        rw [if_neg h1]
        split at hid
        · simp only at hid
          exact absurd hid.symm hidne
        · rename_i h2
          rw [if_neg h2]
          obtain ⟨a, b, hab, hb⟩ := exists_last_segment r
          rw [hab, splitLast_eq a b hb]
          cases a with
          | nil => rfl
          | cons x a =>
            simp only [List.cons_append, List.cons.injEq] at hab
            show some x = some '/'
            rw [hab.1]
    cases h
    dsimp only
    by_cases hb : (pathSplit t.resource).2 = id
    · simp only [hb, if_true]
      have := hsplit hb
      split
      · exact this
      · cases hq : (pathSplit t.resource).1 with
        | nil => rw [hq] at this; simp at this
        | cons x q => rw [hq] at this; simpa using this
    · simp only [hb, if_false]
      split
      · exact hres
      · rw [hr]; rfl
  obtain ⟨r, hr⟩ : ∃ r, u.path = '/' :: r := by
    cases hc : u.path with
    | nil => rw [hc] at hh; simp at hh
    | cons x r => rw [hc] at hh; simp at hh; exact ⟨r, by rw [hh]⟩
  refine ⟨r, hr, ?_⟩
  unfold Uri.string evString
  rw [hr]
  cases u.secure <;> simp only [Url.text, Url.body, Bool.false_eq_true, if_false, if_true, List.cons_append]
  · split <;> simp_all [sWs, Scheme.text]
  · split <;> simp_all [sWss, Scheme.text]

/-- C152.  The address reported by `Uri::string` leads to the same target as the address that was given.  Partial: the
host is not an IPv6 address (`C152_violated`) and not empty, and the identity contains no slash. -/
theorem C152_string_partial (uri id : Str) (profile : Int) (u : Uri) (h : parseAndValidate uri id profile = .ok u)
    (hk : KnownProfile profile) (hid : '/' ∉ id) (hne : id ≠ [])
    (hh : u.host ≠ [] ∧ '/' ∉ u.host ∧ ':' ∉ u.host ∧ '[' ∉ u.host) :
    target u.string id profile = target uri id profile := by
  obtain ⟨r, hr, hs⟩ := string_url h
  obtain ⟨t, ht, hv, hsec, hhost, hport, hidd, hlast, hc⟩ := parse_ok h
  obtain ⟨sc, h1, h2, h3, h4, -⟩ := evUri_valid ht hv
  have hsp : u.secure = profileTls profile := by
    rw [hsec]
    have hge : profileTls profile = decide (profile ≥ 2) := by
      unfold KnownProfile at hk
      unfold profileTls
      rcases hk with rfl | rfl | rfl | rfl <;> decide
    rw [hge]
    cases hcc : contains sSep uri
    · rw [hcc] at h2
      simp only [Bool.false_eq_true, if_false] at h2
      by_cases hp : profile ≥ 2
      · rw [if_pos hp] at h2
        have : sc = .wss := scheme_unique h2 ⟨uri, rfl⟩
        rw [← h1, this]; simp [hp, Scheme.tls]
      · rw [if_neg hp] at h2
        have : sc = .ws := scheme_unique h2 ⟨uri, rfl⟩
        rw [← h1, this]; simp [hp, Scheme.tls]
    · have := (hc hcc).1
      cases hts : t.secure
      · rw [hts] at this; simp at this; simp; omega
      · rw [hts] at this; simp at this; simp; omega
  have hpn : u.port < 10 ^ 5 := by omega
  obtain ⟨d1, d2, d3⟩ := decimal_spec 5 u.port hpn (by decide)
  have hid2 : '/' ∉ u.id := by rw [hidd]; exact hid
  rw [hs, hidd]
  have hprt : ∀ p, (if u.port = (if u.secure then 443 else 80) then none else some (decimal 5 u.port)) = some p →
      p = decimal 5 u.port := by
    intro p hp
    by_cases hd : u.port = (if u.secure then 443 else 80)
    · rw [if_pos hd] at hp; cases hp
    · rw [if_neg hd] at hp; cases hp; rfl
  have hlastid : (r ++ id).getLast? ≠ some '/' := by
    rw [List.getLast?_append]
    obtain ⟨c, q, hcq⟩ := List.exists_cons_of_ne_nil hne
    cases hg : id.getLast? with
    | none => rw [List.getLast?_eq_none_iff] at hg; exact absurd hg hne
    | some x =>
      obtain ⟨ys, hy⟩ := List.getLast?_eq_some_iff.1 hg
      simp only [Option.some_or, ne_eq, Option.some.injEq]
      rintro rfl
      exact hid (by rw [hy]; simp)
  rw [target_url _ id profile ⟨hh.1, by simpa using hh.2, ?_, by simp⟩ hid hne hk ?_ ?_]
  · have hnames : NamesStation id (r ++ id) := by
      unfold NamesStation
      rw [dropSlash, if_neg hlastid]
      obtain ⟨ys, hy⟩ := List.getLast?_eq_some_iff.1 hlast
      rw [← List.cons_append, ← hr, hy]
      exact ⟨ys, by simp⟩
    have hw : wantedPath id (r ++ id) = u.path ++ id := by
      rw [wantedPath, if_pos hnames, dropSlash, if_neg hlastid, hr]; rfl
    have ht' : target uri id profile = .ok ⟨profileTls profile, u.host, u.port, u.path ++ id⟩ := by
      unfold target
      rw [h]
      dsimp only
      unfold KnownProfile at hk
      rw [if_pos hk, hidd]; rfl
    rw [ht']
    unfold wantedTarget
    rw [if_neg, if_neg]
    · simp only [Option.getD_some, hw]
      congr 2
      rw [← hsp]
      by_cases hd : u.port = (if u.secure then 443 else 80)
      · simp only [hd, if_true]
      · simp only [hd, if_false]; exact d3
    · rintro ⟨p, hp, hp'⟩
      rw [hprt p hp, d3, hport] at hp'
      omega
    · rintro ⟨s, hs', hs''⟩
      simp only [Option.some.injEq] at hs'
      rw [← hsp, ← hs'] at hs''
      cases hu : u.secure <;> rw [hu] at hs'' <;> exact hs'' rfl
  · intro p hp
    rw [hprt p hp]; exact ⟨d1, d2⟩
  · intro p hp
    rw [hprt p hp, d3]; omega
  · intro p hp hp'
    simp only [Option.some.injEq] at hp
    subst hp
    exact absurd hp' hlastid

example : ∃ u, parseAndValidate "https://csms.org:8080/a/cp1".toList "cp1".toList 2 = .ok u ∧
    u.string = "wss://csms.org:8080/a/cp1".toList ∧
    (u.host ≠ [] ∧ '/' ∉ u.host ∧ ':' ∉ u.host ∧ '[' ∉ u.host) :=
  ⟨⟨true, "csms.org".toList, 8080, "/a/".toList, "cp1".toList⟩, by decide +kernel, by decide +kernel, by decide +kernel⟩

/-- C152 is violated by IPv6 addresses: the brackets are missing from the reported address, and it is not a valid
address. -/
theorem C152_violated : ∃ u, parseAndValidate "ws://[fe80::1]/a".toList "cp1".toList 1 = .ok u ∧
    u.string = "ws://fe80::1/a/cp1".toList ∧ target u.string "cp1".toList 1 = .error .invalidArgument :=
  ⟨⟨false, "fe80::1".toList, 80, "/a/".toList, "cp1".toList⟩, by decide +kernel, by decide +kernel, by decide +kernel⟩

end Verif.Sock
