import Verif.Effects16.Model
import Verif.Conf16.Formats
/-! What the theorems about the effects of the configuration of an OCPP 1.6 station speak about. -/

namespace Verif.Eff16
open Conf16 (Text Val Maps Env Write)

/-- The configuration has the number `n` for the key (what GetConfiguration reports: C131). -/
def Says (s : St) (k : String) (n : Int) : Prop := s.conf.cfg.keys k.toList = some (.int n)

/-- The configuration has the text `t` for the key. -/
def SaysText (s : St) (k : String) (t : Text) : Prop := s.conf.cfg.keys k.toList = some (.text t)

/-- A timer with an interval of `n` seconds; 0 stands for no timer. -/
def RunsAt (timer : Option Int) (n : Int) : Prop := (0 < n → timer = some n) ∧ (n = 0 → timer = none)

/-- The running station does what the configuration says: heartbeats and clock aligned meter values once it is registered, the sampled meter
values of each transaction, the attempts of the message queue, the timeout the application was told, and the key for the next connection. -/
structure InEffect (s : St) : Prop where
  heartbeat : s.booted = true → ∀ n, Says s "HeartbeatInterval" n → RunsAt s.heartbeat n
  aligned : s.booted = true → ∀ n, Says s "ClockAlignedDataInterval" n → RunsAt s.aligned n
  sample : ∀ x ∈ s.txs, ∀ n, Says s "MeterValueSampleInterval" n → ∃ timer, x.timer = some timer ∧ RunsAt timer n
  attempts : ∀ n, Says s "TransactionMessageAttempts" n → s.attempts = n
  retry : ∀ n, Says s "TransactionMessageRetryInterval" n → s.retry = n
  timeout : ∀ n, Says s "ConnectionTimeOut" n → s.timeout = n
  key : ∀ t, SaysText s "AuthorizationKey" t → s.key = some t

/-- The pings go out as the configuration says. -/
def PingInEffect (s : St) : Prop := s.online = true → ∀ n, Says s "WebSocketPingInterval" n → RunsAt s.ping n

/-- The station starts with a configuration of the application and a file of earlier changes; custom keys have names of their own. -/
def Begin (env : Env) (base user : Maps) (now : Int) (s : St) : Prop :=
  ∃ c, Conf16.boot env base user = some c ∧ Conf16.Fresh c.cfg ∧ start env c now [] = some s

/-- The file can be written; no transaction is resumed; a registered station gets no answer to a BootNotification that is not Accepted and
has an interval. -/
def Calm (s : St) : Op → Prop
  | .change _ _ w => w = .ok
  | .restart _ l => l = []
  | .boot a n => a = true ∨ n ≤ 0 ∨ s.booted = false
  | _ => True

/-- A history of such steps. -/
def CalmRun (env : Env) (s : St) : List Op → Prop
  | [] => True
  | o :: r => Calm s o ∧ ∀ s', step env s o = some s' → CalmRun env s' r

/-- The step changes a key, whether it is accepted or not. -/
def Op.changes (k : String) : Op → Prop
  | .change k' _ _ => Conf16.SameName k' k.toList
  | _ => False

/-- The station is restarted. -/
def Op.restarts : Op → Prop
  | .restart _ _ => True
  | _ => False

/-- A restart that is over before the time `d`, or no restart. -/
def Op.before (d : Int) : Op → Prop
  | .restart t _ => t ≤ d
  | _ => True

end Verif.Eff16
