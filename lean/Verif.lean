import Verif.Props.V2IE
import Verif.Props.Utils
import Verif.Props.V2Header
import Verif.Props.V2Msg2
import Verif.Props.V1IE
import Verif.Props.V1Header
import Verif.Props.V1Msg
import Verif.Props.V0Msg
import Verif.Props.Gtp
import Verif.Props.V2Send
import Verif.Props.Alloc
import Verif.Props.V2Registry
import Verif.Props.V2Conn
import Verif.Props.V2Queue
import Verif.Props.UConn
import Verif.Props.URead
import Verif.Props.FieldTypes
import Verif.Props.Typed.Addr
import Verif.Props.Typed.QoS
import Verif.Props.Typed.ULI
import Verif.Props.Typed.Identity
import Verif.Props.Typed.Indication
import Verif.Props.Typed.TFT
import Verif.Props.Typed.PCO
import Verif.Props.Typed.Plain
import Verif.Props.Typed.Own
import Verif.Props.Typed.Plmn
import Verif.Props.Typed.Time
import Verif.Model.Alias
import Verif.Props.Alias
import Verif.Model.Typed.V1
import Verif.Model.Typed.V1PCO
import Verif.Props.Typed.V1
import Verif.Model.V2Session
import Verif.Props.V2Bearer
import Verif.Props.V2Create
import Verif.Props.V2Request
import Verif.Model.URelay
import Verif.Props.URelay
import Verif.Model.Dial
import Verif.Props.Dial
import Verif.Model.Lifecycle
import Verif.Props.Lifecycle
import Verif.Props.Departures
import Verif.Props.Buffer
import Verif.Model.Tunnel
import Verif.Props.Tunnel
import Verif.Props.HeaderSet
import Verif.Model.Locks
import Verif.Props.Locks
import Verif.Model.Consts
import Verif.Spec.Consts
import Verif.Props.Consts
import Verif.Model.Datagrams
import Verif.Props.Datagrams
import Verif.Model.Typed.Convenience
import Verif.Props.Typed.Convenience
import Verif.Model.Float64
import Verif.Model.Typed.Delay
import Verif.Props.Typed.Delay
import Verif.Props.Typed.Refuse
import Verif.Props.Typed.Must
import Verif.Props.Typed.Short
import Verif.Props.Typed.Short1
import Verif.Props.Typed.Into
import Verif.Props.Typed.Cramped
import Verif.Props.Typed.Reuse
import Verif.Proofs.Typed.Again
import Verif.Props.Typed.Again
import Verif.Props.Typed.ULIOld
import Verif.Props.MsgLen
import Verif.Props.USwitch
import Verif.Proofs.MsgEdit
import Verif.Props.Edit
import Verif.Props.Generic
import Verif.Props.Helpers
import Verif.Model.Listen
import Verif.Props.Listen
import Verif.Model.Exchange
import Verif.Props.Exchange
import Verif.Model.UPath
import Verif.Props.UPath
import Verif.Model.IPText
import Verif.Spec.IPText
import Verif.Proofs.IPText
import Verif.Model.AddrText
import Verif.Props.IPText
import Verif.Model.Cost
import Verif.Proofs.Cost
import Verif.Props.Cost
import Verif.Props.Attach
import Verif.Model.Capacity
import Verif.Proofs.Capacity
import Verif.Props.Capacity
import Verif.Proofs.Order
import Verif.Props.Order
import Verif.Props.Cut
import Verif.Model.Reuse
import Verif.Props.Reuse
import Verif.Props.Dialogue
import Verif.Model.UAnswers
import Verif.Props.Answers
import Verif.Props.Overwrite
import Verif.Props.Exactly
import Verif.Model.Pgw
import Verif.Proofs.Pgw
import Verif.Proofs.PgwAnswer
import Verif.Proofs.PgwInv
import Verif.Proofs.PgwServe
import Verif.Props.Pgw
import Verif.Model.PgwKernel
import Verif.Proofs.PgwKernel
import Verif.Props.PgwKernel
import Verif.Model.Sgw
import Verif.Proofs.Sgw
import Verif.Proofs.SgwCreate
import Verif.Proofs.SgwCreated
import Verif.Proofs.SgwRelay
import Verif.Proofs.SgwFinish
import Verif.Proofs.SgwInv
import Verif.Proofs.SgwLater
import Verif.Props.Sgw
import Verif.Props.SgwLater
import Verif.Props.SgwRuns
import Verif.Model.Mme
import Verif.Proofs.Mme
import Verif.Proofs.MmeLater
import Verif.Proofs.MmeInv
import Verif.Props.Mme
import Verif.Proofs.SgwBearer
import Verif.Props.SgwBearer
import Verif.Props.MmeNetwork
import Verif.Props.MmeRuns
import Verif.Model.Nil
import Verif.Proofs.Nil
import Verif.Props.Nil
import Verif.Model.Declare
import Verif.Proofs.Declare
import Verif.Props.Declare
import Verif.Model.Keep
import Verif.Proofs.Keep
import Verif.Props.Keep
import Verif.Model.SgwKernel
import Verif.Proofs.SgwKernel
import Verif.Props.SgwKernel
import Verif.Props.SgwKernelRuns
import Verif.Model.Given
import Verif.Props.Given
import Verif.Model.Shared
import Verif.Props.Shared
import Verif.Props.SgwKernelAddr
