import Verif.Model.Codec

/-!
# Account store and configuration copy

Model of the package auth, of utils.StructCopy and of msc.FindAuthConf. A Go panic is `none`.
`yaml.Unmarshal`, the database driver and the Unicode part of `strings.ToLower` are parameters. A process
exit by `log.Fatalf` (unreadable directory or file) is outside the model. The methods lock a mutex around
every access of the map, so each call of `FindByCid` and each insertion is atomic; here whole loads are
sequential steps.
-/

namespace Gosms.Auth

/-- auth/client.go:7-28 `Client` -/
structure Client where
  isp : Bytes := []
  clientId : Bytes := []
  loginName : Bytes := []
  sharedSecret : Bytes := []
  version : UInt8 := 0
  needReport : UInt8 := 0
  smsDisplayNo : Bytes := []
  serviceId : Bytes := []
  defaultMsgLevel : UInt8 := 0
  feeUserType : UInt8 := 0
  feeTerminalType : UInt8 := 0
  feeTerminalId : Bytes := []
  feeType : Bytes := []
  feeCode : Bytes := []
  fixedFee : Bytes := []
  linkId : Bytes := []
  mtValidDuration : Int := 0
  maxConns : Int := 0
  mtWindowSize : Int := 0
  throughput : Int := 0
deriving Repr, DecidableEq

/-- Lower case of an ASCII letter. Part of Go's `strings.ToLower`, used at auth/yaml_store.go:48, 55, auth/mongo_store.go:47. -/
def lowerByte (b : UInt8) : UInt8 := if 0x41 ≤ b ∧ b ≤ 0x5A then b + 0x20 else b

/-- Go's `strings.ToLower`: byte by byte if the string is ASCII, otherwise the Unicode mapping `uni`. Used at
auth/yaml_store.go:48, 55, auth/mongo_store.go:47. -/
def toLower (uni : Bytes → Bytes) (s : Bytes) : Bytes :=
  if s.all (· < 0x80) then s.map lowerByte else uni s

/-- auth/client_store.go:25-29 `storage.Cache`; a Go map used only by key. -/
abbrev Cache := Bytes → Option Client

/-- Assignment to a map entry. auth/yaml_store.go:69, auth/mongo_store.go:40 -/
def Cache.set (m : Cache) (k : Bytes) (c : Client) : Cache := fun k' => if k' = k then some c else m k'

/-- A directory entry: auth/yaml_store.go:23-30. -/
structure File where
  name : Bytes
  isDir : Bool
  data : Bytes
deriving DecidableEq, Repr

/-- `strings.HasSuffix`. Used at auth/yaml_store.go:18, 34, 37. -/
def hasSuffix (s suf : Bytes) : Bool := suf.isSuffixOf s

/-- auth/yaml_store.go:32-38: the key in the file name. -/
def keyOf (name : Bytes) : Bytes :=
  let key := if hasSuffix name (ascii ".yaml") then name.take (name.length - 5) else []
  if hasSuffix name (ascii ".yml") then name.take (name.length - 4) else key

/-- auth/yaml_store.go:59-71 `unmarshal`; `parse` is `yaml.Unmarshal` into a new `Client`. -/
def unmarshal (parse : Bytes → Option Client) (data id : Bytes) (m : Cache) : Option Cache :=
  match parse data with
  | none => some m
  | some cli => if id.length < 4 then none else some (m.set id { cli with isp := id.take 4 })

/-- auth/yaml_store.go:27-49: one directory entry of `Load`. -/
def loadFile (uni : Bytes → Bytes) (parse : Bytes → Option Client) (m : Cache) (f : File) : Option Cache :=
  if f.isDir then some m
  else
    let key := keyOf f.name
    if key = [] then some m
    else unmarshal parse f.data (toLower uni key) m

/-- auth/yaml_store.go:13-50 `YamlStore.Load`, given what `ReadDir` and `ReadFile` return. -/
def yamlLoad (uni : Bytes → Bytes) (parse : Bytes → Option Client) (m : Cache) (fs : List File) : Option Cache :=
  fs.foldlM (loadFile uni parse) m

/-- auth/mongo_store.go:32-41: the records of the cursor; `none` is one that does not decode. -/
def mongoLoad (m : Cache) : List (Option Client) → Cache
  | [] => m
  | none :: _ => m
  | some c :: r => mongoLoad (m.set (c.isp ++ ascii "_" ++ c.clientId) c) r

/-- auth/yaml_store.go:52-57, auth/mongo_store.go:44-49 `FindByCid` -/
def findByCid (uni : Bytes → Bytes) (m : Cache) (isp cid : Bytes) : Option Client :=
  m (toLower uni isp ++ ascii "_" ++ cid)

/-! ## Copying structures -/

/-- A field of a Go struct, as reflection sees it. `T` are the types, `V` the values. utils/utils.go:249-263 -/
structure Field (T V : Type) where
  name : Bytes
  exported : Bool
  ty : T
  val : V
deriving DecidableEq, Repr

/-- An argument of `StructCopy`. utils/utils.go:236-248 -/
inductive Ref (T V : Type) where
  | notPointer
  | nil
  | ptr (fields : List (Field T V))
  | ptrOther

/-- utils/utils.go:253-263: one field. `Set` panics on unexported fields. (Fields promoted from embedded
structs are not modelled.) -/
def copyField {T V : Type} [DecidableEq T] (src : List (Field T V)) (f : Field T V) : Option (Field T V) :=
  match src.find? fun g => g.name = f.name with
  | some g => if g.ty = f.ty then (if f.exported && g.exported then some { f with val := g.val } else none)
      else some f
  | none => some f

/-- utils/utils.go:236-264 `StructCopy`: the target afterwards. -/
def structCopy {T V : Type} [DecidableEq T] : Ref T V → Ref T V → Option (Ref T V)
  | .notPointer, to => some to
  | _, .notPointer => some .notPointer
  | .nil, to => some to
  | _, .nil => some .nil
  | _, .ptrOther => none
  | .ptr src, .ptr dst => (dst.mapM (copyField src)).map .ptr
  | .ptrOther, .ptr dst => if dst = [] then some (.ptr []) else none

/-- The Go types of the two configuration structs. auth/client.go:7-28, codec/auth_conf.go:10-31 -/
inductive Ty where
  | string | byte | duration | int
deriving DecidableEq, Repr

/-- Their values. auth/client.go:7-28, codec/auth_conf.go:10-31 -/
inductive Val where
  | str (s : Bytes)
  | byte (b : UInt8)
  | int (i : Int)
deriving DecidableEq, Repr

/-- auth/client.go:7-28 as reflection sees it -/
def Client.fields (c : Client) : List (Field Ty Val) :=
  [⟨ascii "ISP", true, .string, .str c.isp⟩,
   ⟨ascii "ClientId", true, .string, .str c.clientId⟩,
   ⟨ascii "LoginName", true, .string, .str c.loginName⟩,
   ⟨ascii "SharedSecret", true, .string, .str c.sharedSecret⟩,
   ⟨ascii "Version", true, .byte, .byte c.version⟩,
   ⟨ascii "NeedReport", true, .byte, .byte c.needReport⟩,
   ⟨ascii "SmsDisplayNo", true, .string, .str c.smsDisplayNo⟩,
   ⟨ascii "ServiceId", true, .string, .str c.serviceId⟩,
   ⟨ascii "DefaultMsgLevel", true, .byte, .byte c.defaultMsgLevel⟩,
   ⟨ascii "FeeUserType", true, .byte, .byte c.feeUserType⟩,
   ⟨ascii "FeeTerminalType", true, .byte, .byte c.feeTerminalType⟩,
   ⟨ascii "FeeTerminalId", true, .string, .str c.feeTerminalId⟩,
   ⟨ascii "FeeType", true, .string, .str c.feeType⟩,
   ⟨ascii "FeeCode", true, .string, .str c.feeCode⟩,
   ⟨ascii "FixedFee", true, .string, .str c.fixedFee⟩,
   ⟨ascii "LinkId", true, .string, .str c.linkId⟩,
   ⟨ascii "MtValidDuration", true, .duration, .int c.mtValidDuration⟩,
   ⟨ascii "MaxConns", true, .int, .int c.maxConns⟩,
   ⟨ascii "MtWindowSize", true, .int, .int c.mtWindowSize⟩,
   ⟨ascii "Throughput", true, .int, .int c.throughput⟩]

/-- codec/auth_conf.go:10-31 as reflection sees it -/
def authFields (c : AuthConf) : List (Field Ty Val) :=
  [⟨ascii "ISP", true, .string, .str c.isp⟩,
   ⟨ascii "ClientId", true, .string, .str c.clientId⟩,
   ⟨ascii "LoginName", true, .string, .str c.loginName⟩,
   ⟨ascii "SharedSecret", true, .string, .str c.sharedSecret⟩,
   ⟨ascii "Version", true, .byte, .byte c.version⟩,
   ⟨ascii "NeedReport", true, .byte, .byte c.needReport⟩,
   ⟨ascii "SmsDisplayNo", true, .string, .str c.smsDisplayNo⟩,
   ⟨ascii "ServiceId", true, .string, .str c.serviceId⟩,
   ⟨ascii "DefaultMsgLevel", true, .byte, .byte c.defaultMsgLevel⟩,
   ⟨ascii "FeeUserType", true, .byte, .byte c.feeUserType⟩,
   ⟨ascii "FeeTerminalType", true, .byte, .byte c.feeTerminalType⟩,
   ⟨ascii "FeeTerminalId", true, .string, .str c.feeTerminalId⟩,
   ⟨ascii "FeeType", true, .string, .str c.feeType⟩,
   ⟨ascii "FeeCode", true, .string, .str c.feeCode⟩,
   ⟨ascii "FixedFee", true, .string, .str c.fixedFee⟩,
   ⟨ascii "LinkId", true, .string, .str c.linkId⟩,
   ⟨ascii "MtValidDuration", true, .duration, .int c.mtValidDuration⟩,
   ⟨ascii "MaxConns", true, .int, .int c.maxConns⟩,
   ⟨ascii "MtWindowSize", true, .int, .int c.mtWindowSize⟩,
   ⟨ascii "Throughput", true, .int, .int c.throughput⟩]

/-- The configuration with the given field values, in the order of the declaration (inverse of `authFields`).
codec/auth_conf.go:10-31 -/
def authOf : List Val → Option AuthConf
  | [.str a1, .str a2, .str a3, .str a4, .byte a5, .byte a6, .str a7, .str a8, .byte a9, .byte a10,
     .byte a11, .str a12, .str a13, .str a14, .str a15, .str a16, .int a17, .int a18, .int a19, .int a20] =>
    some ⟨a1, a2, a3, a4, a5, a6, a7, a8, a9, a10, a11, a12, a13, a14, a15, a16, a17, a18, a19, a20⟩
  | _ => none

/-- msc_server/utils.go:9-17 `FindAuthConf`; the outer `none` is a panic, the inner one nil. -/
def findAuthConf (find : Bytes → Bytes → Option Client) (isp clientId : Bytes) : Option (Option AuthConf) :=
  match find isp clientId with
  | none => some none
  | some c => do
    let r ← structCopy (.ptr c.fields) (.ptr (authFields {}))
    match r with
    | .ptr l => (authOf (l.map Field.val)).map some
    | _ => none

end Gosms.Auth
