import Verif.AlarmQueue.Props
import Verif.Scheduler.Props
import Verif.Cpm.Props
import Verif.Layout.Props
import Verif.Ppm.Props
import Verif.Connect.Props
import Verif.Alarm.Link
import Verif.Validate.Ip
import Verif.Validate.Name
import Verif.Store.File
import Verif.Store.Worker
import Verif.LogBook.Props
import Verif.Eth.Props
import Verif.Signal.Props
import Verif.Device.Slots
import Verif.Device.ConnProps
import Verif.Device.Diff
import Verif.Diag.Final
import Verif.Startup.Props
import Verif.Wire.Model
import Verif.Wire.Lemmas
import Verif.Wire.Codec
import Verif.Wire.Records
import Verif.Wire.Interp
import Verif.Wire.ConnSpec
import Verif.Wire.ConnLemmas
import Verif.Wire.ConnSafe
import Verif.Wire.Props
import Verif.Rpc.Model
import Verif.Rpc.Lemmas
import Verif.Rpc.Inv
import Verif.Rpc.Step
import Verif.Rpc.Requests
import Verif.Rpc.InOrder
import Verif.Rpc.Responses
import Verif.Rpc.Fits
import Verif.Rpc.Props
import Verif.Write.Props
import Verif.Im.Props
import Verif.Plug.Props
import Verif.Plug.SubDiff
import Verif.Cmina.Props
import Verif.Dcp.RoundTrip
import Verif.Lldp.Props
import Verif.Pdport.Ports
import Verif.Pdport.Props
import Verif.DiagRead.Props
import Verif.Ident.Props
import Verif.Read.Props
import Verif.Records.Props
import Verif.Epm.Props
import Verif.Rpc.Exhaust
import Verif.ConnRsp.Props
import Verif.AlarmPdu.Demo
import Verif.Control.Ready
import Verif.Diag.Api
import Verif.Snmp.Props
import Verif.Snmp.Peer
import Verif.Snmp.Desc
import Verif.Dcp.Hello
import Verif.Ppm.Status
import Verif.Sock.Model
import Verif.Sock.Props
import Verif.Sock.Final
import Verif.Sock.Ready
import Verif.Sock.Uuid
import Verif.Control.Demo
import Verif.Lan.Sram
import Verif.Lan.Addr
import Verif.Lan.Leak
import Verif.Lan.Interval
import Verif.Lan.Watch
import Verif.Lan.Values
import Verif.Conc.Send
import Verif.Conc.SendProps
import Verif.Conc.Recv
import Verif.Conc.RecvProps
import Verif.Conc.RecvFinal
import Verif.Device.Accept
import Verif.Shared.Props
import Verif.Rx.Props
import Verif.Startup.Ending
import Verif.Connect.Access
import Verif.Startup.AbortAll
import Verif.Store.Remove
import Verif.Init.Model
import Verif.Init.Props
import Verif.Res.Model
import Verif.Res.Props
import Verif.Budget.Model
import Verif.Budget.Props
import Verif.Budget.Fails
import Verif.Check.Model
import Verif.Check.Spec
import Verif.Check.Lemmas
import Verif.Check.Frames
import Verif.Check.Blocks
import Verif.Check.Props
import Verif.Check.Fails
import Verif.ConnRsp.Reply
import Verif.Alarm.Null
import Verif.Reason.Props
import Verif.Write.ReplyProps
import Verif.Alarm.Reuse
import Verif.Startup.Reparam
import Verif.Control.Begin
import Verif.LogBook.Record
import Verif.Startup.Told
import Verif.LogBook.RecordDemo
import Verif.Startup.Ports
import Verif.Startup.Confirmed
import Verif.Device.Asked
import Verif.Startup.Once
