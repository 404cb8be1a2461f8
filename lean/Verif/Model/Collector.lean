import Verif.Model.Netlink
/-!
# Package collector
-/

namespace TcpInfo

/-- tcp/tcpinfo.go:14-27: TCP state numbers used by `makeReq`. -/
abbrev TCP_SYN_RECV : Nat := 3
abbrev TCP_TIME_WAIT : Nat := 6
abbrev TCP_CLOSE : Nat := 7
/-- tcp/tcpinfo.go:30 `AllFlags`. -/
def tcpAllFlags : UInt32 := 0xFFF

/-- A netlink request: `nl.NetlinkRequest` with its header and one data item. `Len` is filled in by `Serialize`. -/
structure NetlinkRequest where
  type : UInt16
  flags : UInt16
  seq : UInt32
  data : ReqV2
  deriving DecidableEq, Inhabited

/-- inetdiag constants: extension numbers (inetdiag/inetdiag.go:40-62). -/
def extBits : List Nat := [INET_DIAG_MEMINFO, INET_DIAG_INFO, INET_DIAG_VEGASINFO, INET_DIAG_CONG, INET_DIAG_TCLASS,
  INET_DIAG_TOS, INET_DIAG_SKMEMINFO, INET_DIAG_SHUTDOWN]

/-- collector/socket-monitor_linux.go:20-38 `makeReq`. `seq` is chosen by `nl.NewNetlinkRequest` (global counter). -/
def makeReq (inetType : UInt8) (seq : UInt32) : NetlinkRequest :=
  let msg := newReqV2 inetType 6
    (tcpAllFlags &&& ~~~((1 <<< UInt32.ofNat TCP_SYN_RECV) ||| (1 <<< UInt32.ofNat TCP_TIME_WAIT) ||| (1 <<< UInt32.ofNat TCP_CLOSE)))
  let ext := extBits.foldl (fun e t => e ||| (1 <<< UInt8.ofNat (t - 1))) msg.ext
  -- nl.NewNetlinkRequest ors in NLM_F_REQUEST; lines 35-36 set type and flags again
  { type := 20, flags := 0x300 ||| 0x1, seq := seq, data := { msg with ext := ext } }

/-- `unix.NLMSG_DONE`, `unix.NLMSG_ERROR`, `unix.NLM_F_MULTI`. -/
abbrev NLMSG_DONE : UInt16 := 3
abbrev NLMSG_ERROR : UInt16 := 2
abbrev NLM_F_MULTI : UInt16 := 2

/-- collector/socket-monitor_linux.go:40-70 `processSingleMessage`: message (if any), whether to go on, error. Native endian = little. -/
def processSingleMessage (m : NetlinkMessage) (seq pid : UInt32) : Option NetlinkMessage × Bool × Option GoErr :=
  if m.header.seq ≠ seq then (none, false, some .badSequence)
  else if m.header.pid ≠ pid then (none, false, some .badPid)
  else if m.header.type = NLMSG_DONE then (none, false, none)
  else
    let tail : Option NetlinkMessage × Bool × Option GoErr :=
      if m.header.flags &&& NLM_F_MULTI = 0 then (some m, false, none) else (some m, true, none)
    if m.header.type = NLMSG_ERROR then
      if m.data.length < 4 then (none, false, some .badMsgData)
      else if u32At 0 m.data = 0 then (none, false, none)
      else tail
    else tail

/-- collector/socket-monitor_linux.go:121-135: the inner loop over one batch. `none`: batch exhausted, go on receiving. -/
def oneTypeBatch (seq pid : UInt32) : List NetlinkMessage → (res : List NetlinkMessage) →
    List NetlinkMessage × Option (Option GoErr)
  | [], res => (res, none)
  | m :: ms, res =>
    match processSingleMessage m seq pid with
    | (_, _, some e) => (res, some (some e))
    | (mo, cont, none) =>
      let res := match mo with | some m => res ++ [m] | none => res
      if cont then oneTypeBatch seq pid ms res else (res, some none)

/-- collector/socket-monitor_linux.go:114-136: the receive loop. The script lists what successive `Receive` calls return (messages or an
error); `none` = still waiting for the next `Receive` when the script ends. -/
def oneTypeLoop (seq pid : UInt32) : List (Except GoErr (List NetlinkMessage)) → (res : List NetlinkMessage) →
    Option (List NetlinkMessage × Option GoErr)
  | [], _ => none
  | .error e :: _, _ => some ([], some e)
  | .ok msgs :: script, res =>
    match oneTypeBatch seq pid msgs res with
    | (res, some e) => some (res, e)
    | (res, none) => oneTypeLoop seq pid script res

/-- collector/socket-monitor_linux.go:74-137 `OneType`. `setup`: error of `Subscribe`, `Send` or `GetPid`, if any. The deferred metrics
are in `Model/Metrics.lean`. -/
def oneType (setup : Option GoErr) (seq pid : UInt32) (script : List (Except GoErr (List NetlinkMessage))) :
    Option (List NetlinkMessage × Option GoErr) :=
  match setup with
  | some e => some ([], some e)
  | none => oneTypeLoop seq pid script []

/-- netlink/netlink.go:6-12 `MessageBlock`. A `none` message is a nil pointer. -/
structure MessageBlock where
  v4Time : Int
  v4Messages : List (Option NetlinkMessage)
  v6Time : Int
  v6Messages : List (Option NetlinkMessage)
  deriving DecidableEq, Inhabited

/-- collector/collector_linux.go:25-54 `collectDefaultNamespace`: the block submitted, given what the two dumps returned and the
clock readings after them. (The counts it returns are only logged.) -/
def collectBlock (res6 : List NetlinkMessage × Option GoErr) (t6 : Int) (res4 : List NetlinkMessage × Option GoErr) (t4 : Int) :
    MessageBlock :=
  { v6Time := t6
    v6Messages := match res6.2 with | some _ => [] | none => res6.1.map some
    v4Time := t4
    v4Messages := match res4.2 with | some _ => [] | none => res4.1.map some }

/-- collector/collector_linux.go:58-91 `Run`: the blocks submitted by the loop, starting with iteration `loops`; `cancelled k` is the
answer of `ctx.Err() != nil` at the k-th loop test, `poll k` the block of the k-th poll. The second component tells whether the loop
ended within `fuel` iterations. Waiting (ticker: see `Model.Ticker`; full channel: `Model.Process`) and logging are not modelled. -/
def runLoop (reps : Int) (cancelled : Nat → Bool) (poll : Nat → MessageBlock) : (fuel loops : Nat) → List MessageBlock × Bool
  | 0, _ => ([], false)
  | fuel + 1, loops =>
    if (reps = 0 ∨ (loops : Int) < reps) ∧ cancelled loops = false then
      let r := runLoop reps cancelled poll fuel (loops + 1)
      (poll loops :: r.1, r.2)
    else ([], true)

end TcpInfo
