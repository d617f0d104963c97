import Verif.Props.Pricing
import Verif.Props.Encoding
import Verif.Props.Server
import Verif.Props.ServerHistory
import Verif.Props.ServerSpent
import Verif.Props.ShareFile
import Verif.Props.Store
import Verif.Props.Maintenance
import Verif.Props.Spending
import Verif.Props.Controller
import Verif.Props.LeaseMaintenance
import Verif.Props.VoucherJson
import Verif.Props.Misc
import Verif.Props.Replication
import Verif.Props.Schema
import Verif.Props.Recovery
import Verif.Props.RecoverFactory
import Verif.Props.Setup
import Verif.Props.StartUp
import Verif.Props.StoreConn
import Verif.Props.Ristretto
import Verif.Props.VoucherWeb
import Verif.Props.Plugin
import Verif.Props.Cbor
import Verif.Props.ReplicaGrid
import Verif.Props.MaintLife
import Verif.Props.Wire
import Verif.Props.Books
import Verif.Props.Loss
import Verif.Props.Finish
import Verif.Props.StoreSql
import Verif.Props.Backlog
import Verif.Props.Slot
import Verif.Props.TahoeApi
import Verif.Props.RecoverRedeem
import Verif.Props.ShareDir
import Verif.Props.LeaseSecrets
import Verif.Props.Api
import Verif.Props.Vocabulary
import Verif.Props.Redeemers
import Verif.Props.ReplicaCost
import Verif.Props.ServerReads
import Verif.Props.Checkpoint
import Verif.Props.Generations
import Verif.Props.SqlText
import Verif.Props.Configurations
import Verif.Props.Backup
import Verif.Props.StorageClient
import Verif.Props.PassReuse
import Verif.Props.VoucherStatus
import Verif.Props.Conversation
import Verif.Props.BadTokens
import Verif.Props.Results
import Verif.Props.Failures
import Verif.Props.Traffic
import Verif.Props.Uploads
import Verif.Props.BadTraffic
import Verif.Props.WriteVectors
import Verif.Props.MaintRun
import Verif.Props.Calls
import Verif.Props.ShortRun
import Verif.Props.RealSigner
import Verif.Props.Upkeep
import Verif.Props.WholeNode
import Verif.Props.Recurrence
import Verif.Props.IssuedLife
import Verif.Props.IssuedValue
import Verif.Props.OneList
import Verif.Props.Balance
import Verif.Props.Worth
import Verif.Props.Metrics
import Verif.Props.Keeping
import Verif.Props.LiteralFiles
import Verif.Props.Unreadable
