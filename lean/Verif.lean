import Verif.MessageQueue.Theorems
import Verif.MessageQueue.Theorems2
import Verif.SmartCharging.V16Theorems
import Verif.SmartCharging.V2Theorems
import Verif.ProfileStore.Theorems
import Verif.Auth.Theorems
import Verif.Auth.ListTheorems
import Verif.Tx.Theorems
import Verif.Avail.Theorems
import Verif.Conn16.Theorems
import Verif.Conn16.Theorems2
import Verif.DeviceModel.Theorems
import Verif.Reports.Theorems
import Verif.Monitor.StoreTheorems
import Verif.Monitor.UpdaterTheorems
import Verif.Monitor.UpdaterTheorems2
import Verif.Connect.Theorems
import Verif.Monitor.UpdaterTheorems3
import Verif.Connect.Theorems2
import Verif.Security.Model
import Verif.Security.Theorems
import Verif.Remote.Model
import Verif.Remote.Theorems
import Verif.Strings.Model
import Verif.Strings.Theorems
import Verif.Meter.Model
import Verif.Meter.Theorems
import Verif.Meter.Averages
import Verif.Meter.Triggers
import Verif.Meter.Storage
import Verif.Wire.EnumTheorems
import Verif.Auth16.Theorems
import Verif.Auth16.ListTheorems
import Verif.Wire.TypeTheorems
import Verif.Tx16.Order
import Verif.Tx16.Assigned
import Verif.Prof16.Persist
import Verif.Boot.Theorems3
import Verif.Conf16.Theorems3
import Verif.Recv.Theorems
import Verif.InitDb.Theorems
import Verif.Sock.Base64Theorems
import Verif.Sock.UriTheorems
import Verif.Sock.LoopTheorems
import Verif.Sock.PingTheorems
import Verif.Sock.KeepTheorems
import Verif.Sock.SendTheorems
import Verif.Met16.Theorems
import Verif.Price.Theorems
import Verif.Price.Cost
import Verif.Trig16.Theorems
import Verif.Req16.Reset
import Verif.Req16.Data
import Verif.Conf16.Formats
import Verif.Log.Rotation
import Verif.Log.Limits
import Verif.Log.Sessions
import Verif.Log.Html
import Verif.Fw2.Theorems
import Verif.Display.Theorems
import Verif.Ocsp.Theorems
import Verif.Cert16.Theorems
import Verif.Tariff.Theorems
import Verif.Cert2.Theorems
import Verif.Conf16.Keys
import Verif.MessageQueue.Settled
import Verif.Await.Theorems
import Verif.UserPrice.Unique
import Verif.CertOps.Theorems
import Verif.SecEvents.Theorems
import Verif.Keys.Theorems
import Verif.Effects.Theorems
import Verif.CompReq.Theorems
import Verif.Required.Theorems
import Verif.AvailDm.Theorems
import Verif.ProfileBoot.Theorems
import Verif.Sock.DeliverTheorems
import Verif.Meter.Invalid
import Verif.Meter.TxTheorems
import Verif.Blocks.Theorems
import Verif.SmartCharging.Phases
import Verif.Sock.TrustTheorems
import Verif.EndToEnd.Theorems
import Verif.MessageQueue.Drain
import Verif.EndToEnd.Delivery
import Verif.PubKeys.Theorems
import Verif.Locks.Theorems
import Verif.Effects16.Theorems
import Verif.Recv.Results
import Verif.Conf16.Language
import Verif.MessageQueue.Taken
import Verif.Prof16.Running
import Verif.Tx.Stopped
import Verif.Ocsp.Stop
import Verif.SmartCharging.ThreePhases
import Verif.MessageQueue.Excluded
import Verif.Recv.Profiles
import Verif.Log.Formats
import Verif.MessageQueue.Stop
import Verif.Auth.Erased
import Verif.Auth.Cleaner
import Verif.Met16.Keys
