import Verif.ProfileStore.Model
/-
Stored charging profiles when a 2.x charging station starts: `clear_invalid_charging_profiles`
(`lib/ocpp/v2/charge_point.cpp` l.1182-1202), called by `ChargePoint::start` (l.130) before the station
connects.
-/
namespace Verif.PS

/-- A row put before the rows of higher EVSE ids. -/
def insertByEvse (r : Row) : List Row → List Row
  | [] => [r]
  | x :: l => if r.evse < x.evse then r :: x :: l else x :: insertByEvse r l

/-- `get_all_charging_profiles_group_by_evse` (`lib/ocpp/v2/database_handler.cpp` l.993-1011): a `std::map`
from EVSE ids to the profiles in the order of the table, here as one list. -/
def byEvse (rows : List Row) : List Row := rows.foldl (fun l r => insertByEvse r l) []

/-- The station before it connects: `ocpp_version` is Unknown (`include/ocpp/v2/charge_point.hpp` l.376). -/
def unconnected (env : Env) : Env := { env with v21 := false }

/-- One iteration: the profile is checked like a SetChargingProfile request against what is stored at that
moment; `delete_charging_profile` (`database_handler.cpp` l.793-803) deletes by id. -/
def bootCheck (env : Env) (db : List Row) (r : Row) : List Row :=
  if validate env db r.evse r.profile .set = .valid then db
  else db.filter (fun x => decide (x.profile.id ≠ r.profile.id))

/-- `clear_invalid_charging_profiles` (`charge_point.cpp` l.1182-1202); the functional block exists only if
smart charging is available (l.588-590).  Failures of the database are not modelled. -/
def bootClear (env : Env) (rows : List Row) : List Row :=
  if env.available then (byEvse rows).foldl (bootCheck (unconnected env)) rows else rows

end Verif.PS
