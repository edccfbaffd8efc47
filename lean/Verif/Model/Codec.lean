import Verif.Go.Reader
import Verif.Go.Writer
import Verif.Model.Utils

/-!
# Model of codec/packer.go, codec/auth_conf.go, codec/options_mt.go and the packet headers
-/

namespace Gosms

/-- Read an `n`-byte slot and cut it at the first NUL: `utils.TrimStr(frame[index:index+n])`. As in
codec/cmpp/submit.go:163-235; utils/utils.go:123-125 `TrimStr`. -/
def Rd.str (n : Nat) : Rd Bytes := do
  let b ← Rd.slice n
  pure (trimStr b)

/-! ## Headers -/

/-- codec/cmpp/header.go:11-15 and codec/smgp/header.go:12-16 `MessageHeader`. (The two packages
declare the same type under different field names.) -/
structure Header where
  totalLength : UInt32 := 0
  commandId : UInt32 := 0
  sequenceId : UInt32 := 0
deriving Repr, DecidableEq

/-- codec/cmpp/header.go:18-20, codec/smgp/header.go:19-21: `Encode` first raises the length to
`HeadLen` (12) in place. -/
def Header.clamp (h : Header) : Header :=
  if h.totalLength < 12 then { h with totalLength := 12 } else h

/-- codec/cmpp/header.go:17-26, codec/smgp/header.go:18-27 `MessageHeader.Encode` -/
def Header.encode (h : Header) : Option Bytes :=
  let h := h.clamp
  (runW [.seek 0, .str 4 (be32 h.totalLength),
         .seek 4, .str 4 (be32 h.commandId),
         .seek 8, .str 4 (be32 h.sequenceId)] (zeros h.totalLength.toNat) 0).map (·.1)

/-- codec/cmpp/header.go:28-33, codec/smgp/header.go:29-34 `MessageHeader.Decode` -/
def Header.decode (f : Buf) : Option Header :=
  Rd.run (do
    Rd.seek 0; let l ← Rd.u32
    Rd.seek 4; let c ← Rd.u32
    Rd.seek 8; let s ← Rd.u32
    pure ⟨l, c, s⟩) f

/-- codec/packer.go:44-51 `UnpackHead` (all zero when fewer than 12 bytes). -/
def unpackHead (h : Bytes) : UInt32 × UInt32 × UInt32 :=
  if 12 ≤ h.length then
    (rd32 (h.take 4), rd32 ((h.drop 4).take 4), rd32 ((h.drop 8).take 4))
  else (0, 0, 0)

/-- The shape shared by the encoders: `frame := header.Encode()` and then the body writes. As in codec/cmpp/connect.go:58-68,
codec/smgp/login.go:60-70. -/
def encodeWith (h : Header) (body : List WOp) : Option Bytes :=
  h.encode.bind fun frame => (runW body frame 12).map (·.1)

/-- codec/sgip/header.go:13-17 `MessageHeader`; the sequence number slice always has three
elements (every constructor and decoder makes it so). -/
structure SHeader where
  packetLength : UInt32 := 0
  commandId : UInt32 := 0
  seq0 : UInt32 := 0
  seq1 : UInt32 := 0
  seq2 : UInt32 := 0
deriving Repr, DecidableEq

/-- codec/sgip/header.go:20-22: the length is raised to 20 in place. -/
def SHeader.clamp (h : SHeader) : SHeader :=
  if h.packetLength < 20 then { h with packetLength := 20 } else h

/-- codec/sgip/header.go:19-30 `MessageHeader.Encode` -/
def SHeader.encode (h : SHeader) : Option Bytes :=
  let h := h.clamp
  (runW [.seek 0, .str 4 (be32 h.packetLength),
         .seek 4, .str 4 (be32 h.commandId),
         .seek 8, .str 4 (be32 h.seq0),
         .seek 12, .str 4 (be32 h.seq1),
         .seek 16, .str 4 (be32 h.seq2)] (zeros h.packetLength.toNat) 0).map (·.1)

/-- codec/sgip/header.go:32-40 `MessageHeader.Decode` -/
def SHeader.decode (f : Buf) : Option SHeader :=
  Rd.run (do
    Rd.seek 0; let l ← Rd.u32
    Rd.seek 4; let c ← Rd.u32
    Rd.seek 8; let s0 ← Rd.u32
    Rd.seek 12; let s1 ← Rd.u32
    Rd.seek 16; let s2 ← Rd.u32
    pure ⟨l, c, s0, s1, s2⟩) f

/-- The SGIP encoders: header, then the body writes from index 20. As in codec/sgip/bind.go:35-45. -/
def encodeWithS (h : SHeader) (body : List WOp) : Option Bytes :=
  h.encode.bind fun frame => (runW body frame 20).map (·.1)

/-! ## Accounts and message options -/

/-- codec/auth_conf.go:10-31 `AuthConf`. `MtValidDuration` is in nanoseconds. -/
structure AuthConf where
  isp : Bytes := []
  clientId : Bytes := []
  loginName : Bytes := []
  sharedSecret : Bytes := []
  version : UInt8 := 0
  needReport : UInt8 := 0
  smsDisplayNo : Bytes := []
  serviceId : Bytes := []
  defaultMsgLevel : UInt8 := 0
  feeUserType : UInt8 := 0
  feeTerminalType : UInt8 := 0
  feeTerminalId : Bytes := []
  feeType : Bytes := []
  feeCode : Bytes := []
  fixedFee : Bytes := []
  linkId : Bytes := []
  mtValidDuration : Int := 0
  maxConns : Int := 0
  mtWindowSize : Int := 0
  throughput : Int := 0
deriving Repr, DecidableEq

/-- codec/options_mt.go:22-35 `MtOptions` -/
structure MtOptions where
  needReport : UInt8 := 0
  msgLevel : UInt8 := 0
  feeUsertype : UInt8 := 0
  feeTerminalType : UInt8 := 0
  serviceId : Bytes := []
  feeTerminalId : Bytes := []
  feeType : Bytes := []
  feeCode : Bytes := []
  validTime : Bytes := []
  atTime : Bytes := []
  spSubNo : Bytes := []
  linkID : Bytes := []
deriving Repr, DecidableEq

/-- codec/options_mt.go:7 `OptionFunc`: a function that updates the options in place. -/
abbrev OptionFunc := MtOptions → MtOptions

/-- codec/options_mt.go:10-15: the initial values of `LoadMtOptions`. -/
def mtDefaults : MtOptions :=
  { needReport := 0xf, msgLevel := 0xf, feeUsertype := 0xf, feeTerminalType := 0xf }

/-- codec/options_mt.go:9-20 `LoadMtOptions` -/
def loadMtOptions (ops : List OptionFunc) : MtOptions := ops.foldl (fun o f => f o) mtDefaults

/-- codec/options_mt.go:38-42 `WithMtOptions`: assigns its own parameter, so the caller's options
are not changed. -/
def withMtOptions (_opt : MtOptions) : OptionFunc := fun o => o

/-- codec/options_mt.go:45-52 -/
def mtFeeTerminalType (t : UInt8) : OptionFunc :=
  let t := if t ≠ 0 ∧ t ≠ 1 then 0xf else t
  fun o => { o with feeTerminalType := t }

/-- codec/options_mt.go:59-66 -/
def mtFeeUsertype (t : UInt8) : OptionFunc :=
  let t := if t ≠ 0 ∧ t ≠ 1 ∧ t ≠ 2 ∧ t ≠ 3 then 0xf else t
  fun o => { o with feeUsertype := t }

/-- codec/options_mt.go:69-73 -/
def mtLinkID (s : Bytes) : OptionFunc := fun o => { o with linkID := s }

/-- codec/options_mt.go:76-80 -/
def mtSpSubNo (s : Bytes) : OptionFunc := fun o => { o with spSubNo := s }

/-- codec/options_mt.go:83-88 -/
def mtAtTime (t : Clock) : OptionFunc := fun o => { o with atTime := formatTime t }

/-- codec/options_mt.go:91-98 -/
def mtAtTimeStr (s : Bytes) : OptionFunc := fun o =>
  { o with atTime := (if s.length > 12 then s.take 12 else s) ++ ascii "032+" }

/-- codec/options_mt.go:101-105 -/
def mtValidTime (s : Bytes) : OptionFunc := fun o => { o with validTime := s }

/-- codec/options_mt.go:108-112 -/
def mtFeeCode (s : Bytes) : OptionFunc := fun o => { o with feeCode := s }

/-- codec/options_mt.go:120-127 -/
def mtFeeType (s : Bytes) : OptionFunc :=
  let s := if s ≠ ascii "01" ∧ s ≠ ascii "02" ∧ s ≠ ascii "03" ∧ s ≠ ascii "04" ∧ s ≠ ascii "05"
    then [] else s
  fun o => { o with feeType := s }

/-- codec/options_mt.go:130-134 -/
def mtFeeTerminalId (id : Bytes) : OptionFunc := fun o => { o with feeTerminalId := id }

/-- codec/options_mt.go:137-141 -/
def mtServiceId (id : Bytes) : OptionFunc := fun o => { o with serviceId := id }

/-- codec/options_mt.go:144-151 -/
def mtNeedReport (tf : UInt8) : OptionFunc :=
  let tf := if tf ≠ 0 ∧ tf ≠ 1 then 0xf else tf
  fun o => { o with needReport := tf }

/-- codec/options_mt.go:154-161 -/
def mtMsgLevel (l : UInt8) : OptionFunc :=
  let l := if l > 9 then 0xf else l
  fun o => { o with msgLevel := l }

end Gosms

namespace Gosms

/-- How a received CMPP or SMGP packet reaches a decoder (msc_server/server/on_traffic.go, msc_client/session): the sequence
number comes from the header, the decoder gets the bytes after the 12-byte header; the slice may have spare capacity, holding
`spare`. msc_server/server/on_traffic.go:55-106, msc_client/session/session.go:118-148 -/
def recv {α : Type} (dec : UInt32 → Buf → Option α) (frame spare : Bytes) : Option α :=
  dec (unpackHead frame).2.2 ⟨frame.drop 12 ++ spare, frame.length - 12⟩

end Gosms
