import Verif.Model.Sequences

/-!
# Starting up

Model of the configuration-driven part of msc_server/bootstrap.go, msc_client/bootstrap.go, msc_server/custom_log.go, auth/client_store.go
(`New`) and database/mongodb/mongo.go. The configuration (library yaml_config, on top of viper) is a function from keys to values, empty
or 0 where nothing is configured; keys are given here in the spelling of the code (viper ignores case).
-/

namespace Gosms.Startup

/-- The values of the configuration. Read at msc_server/bootstrap.go:75-124. -/
structure Config where
  str : Bytes → Bytes
  int : Bytes → Int
  bool : Bytes → Bool

/-- `c` with another integer under `k`. For configurations that differ in one of the values read at
msc_server/bootstrap.go:112-124. -/
def Config.setInt (c : Config) (k : Bytes) (v : Int) : Config := { c with int := fun k' => if k' = k then v else c.int k' }

/-! ## Sequence generators -/

/-- The generators set by `SeqInit`: codec.B64Seq, codec.B32Seq, codec.BcdSeq, sgip.Sequencer. msc_server/bootstrap.go:112-124
-/
structure Generators where
  b64 : Snowflake
  b32 : CycleSeq
  bcd : BcdSeq
  sgip : SgipSeq

/-- msc_server/bootstrap.go:112-124 and msc_client/bootstrap.go:120-132 `SeqInit`, first call (`sgip.NewSequencer` does nothing in later
calls). `GetInt64` wraps to 64 bits, `GetInt32` and the conversions to 32. -/
def seqInit (c : Config) : Generators :=
  let b64dc := BitVec.ofInt 64 (c.int (ascii "Snowflake.B64.DC"))
  let b64worker := BitVec.ofInt 64 (c.int (ascii "Snowflake.B64.worker"))
  let b32dc := BitVec.ofInt 64 (c.int (ascii "Snowflake.B64.DC"))
  let b32worker := BitVec.ofInt 64 (c.int (ascii "Snowflake.B64.worker"))
  let bcd := c.str (ascii "Snowflake.BCD")
  let node := BitVec.ofInt 32 (c.int (ascii "Snowflake.SGIP"))
  { b64 := newSnowflake b64dc b64worker
    b32 := newCycleSequence (b32dc.setWidth 32) (b32worker.setWidth 32)
    bcd := newBcdSequence bcd
    sgip := newSgipSequencer (UInt32.ofBitVec node) (UInt32.ofBitVec ((8 * b32dc + b32worker).setWidth 32)) }

/-! ## Loggers -/

/-- log.TeeOption as far as it is set. msc_server/bootstrap.go:75-110, msc_server/custom_log.go:11-52 -/
structure Logger where
  fileName : Bytes
  textFormat : Bytes
  timePrecision : Bytes
  maxSize : Int
  maxAge : Int
  maxBackups : Int
  compress : Bool
  level : Int
deriving DecidableEq, Repr

/-- msc_server/custom_log.go:11-52 `New`: the options the logger is created with. -/
def newLogger (c : Config) (basePath name : Bytes) : Logger :=
  let fileName := c.str (ascii "Logs." ++ name ++ ascii ".LogName")
  let fileName := if fileName = [] then ascii "logs/" ++ name ++ ascii ".log" else fileName
  let textFormat := c.str (ascii "Logs." ++ name ++ ascii ".TextFormat")
  let textFormat := if textFormat = [] then ascii "json" else textFormat
  let timePrecision := c.str (ascii "Logs." ++ name ++ ascii ".TimePrecision")
  let timePrecision := if timePrecision = [] then ascii "millisecond" else timePrecision
  let maxSize := c.int (ascii "Logs." ++ name ++ ascii ".MaxSize")
  let maxSize := if maxSize = 0 then 10 else maxSize
  let backups := c.int (ascii "Logs." ++ name ++ ascii ".MaxBackups")
  let backups := if backups = 0 then 100 else backups
  let maxAge := c.int (ascii "Logs." ++ name ++ ascii ".MaxAge")
  let maxAge := if maxAge = 0 then 14 else maxAge
  let compress := c.bool (ascii "Logs." ++ name ++ ascii ".Compress")
  let level := c.int (ascii "Logs" ++ name ++ ascii "Level")
  ⟨basePath ++ fileName, textFormat, timePrecision, maxSize, maxAge, backups, compress, level⟩

/-- msc_server/bootstrap.go:78-87: one entry of the default logger's list; `levelKey` is the key the level is read from. -/
def teeOption (c : Config) (basePath name levelKey : Bytes) : Logger :=
  ⟨basePath ++ c.str (ascii "Logs." ++ name ++ ascii ".LogName"), c.str (ascii "Logs." ++ name ++ ascii ".TextFormat"),
   c.str (ascii "Logs." ++ name ++ ascii ".TimePrecision"), c.int (ascii "Logs." ++ name ++ ascii ".MaxSize"),
   c.int (ascii "Logs." ++ name ++ ascii ".MaxAge"), c.int (ascii "Logs." ++ name ++ ascii ".MaxBackups"),
   c.bool (ascii "Logs." ++ name ++ ascii ".Compress"), c.int levelKey⟩

/-- msc_server/bootstrap.go:75-110 `logInit`: the outputs of the default logger. -/
def serverLogInit (c : Config) (basePath : Bytes) : List Logger :=
  [teeOption c basePath (ascii "Default") (ascii "Logs.Default.Level"), teeOption c basePath (ascii "Error") (ascii "Logs.Error.Level")]

/-- msc_client/bootstrap.go:83-118 `logInit`. -/
def clientLogInit (c : Config) (basePath : Bytes) : List Logger :=
  [teeOption c basePath (ascii "Default") (ascii "Logs.Default.Level"), teeOption c basePath (ascii "Error") (ascii "Logs.Default.Level")]

/-! ## Account store -/

/-- Which store `New` makes. auth/client_store.go:31-50 -/
inductive Store where
  | yaml | mongo
deriving DecidableEq, Repr

/-- What becomes of the start of the store. `db` is the database connection made before (`nil` if none).
auth/client_store.go:31-50 -/
inductive Started where
  | running (s : Store)   -- loaded, reload ticker started
  | panic
deriving DecidableEq, Repr

/-- The environment of the database: MONGO_USER, MONGO_PASSWD, and whether the address can be reached and answers a ping.
database/mongodb/mongo.go:37-72 -/
structure Db where
  user : Bytes
  passwd : Bytes
  reachable : Bytes → Bool

/-- Go's `strings.ReplaceAll` for a non-empty `old`: leftmost occurrences that do not overlap. `fuel` bounds the recursion and
is at least the length. Used at database/mongodb/mongo.go:45-46. -/
def replaceAux (old new : Bytes) : Nat → Bytes → Bytes
  | 0, s => s
  | _ + 1, [] => []
  | n + 1, c :: cs => if old.isPrefixOf (c :: cs) then new ++ replaceAux old new n ((c :: cs).drop old.length)
      else c :: replaceAux old new n cs

/-- Go's `strings.ReplaceAll`, used at database/mongodb/mongo.go:45-46. -/
def replaceAll (s old new : Bytes) : Bytes := replaceAux old new s.length s

/-- database/mongodb/mongo.go:44-46: the address with the credentials filled in. -/
def mongoUri (uri user passwd : Bytes) : Bytes :=
  replaceAll (replaceAll uri (ascii "<user>") user) (ascii "<passwd>") passwd

/-- database/mongodb/mongo.go:37-74 `setConnect`: the line logged on success (line 72), `none` for a panic. -/
def setConnect (c : Config) (pre : Bytes) (db : Db) : Option Bytes :=
  if db.user = [] ∨ db.passwd = [] then none
  else
    let uri := mongoUri (c.str (pre ++ ascii ".URI")) db.user db.passwd
    if db.reachable uri then some (ascii "Connected to " ++ uri) else none

/-- database/mongodb/mongo.go:22-31 `InitDB`: `none` is a panic, otherwise whether the variable Mongo is set, and the log. -/
def initDB (c : Config) (pre : Bytes) (db : Db) : Option (Bool × List Bytes) :=
  if c.str (pre ++ ascii ".URI") = [] then some (false, [])
  else (setConnect c pre db).map fun l => (true, [l])

/-- auth/client_store.go:31-50 `New` in a process that has no database connection yet. `MongoStore.Load` panics without one
(auth/mongo_store.go:21); a nil interface panics on `Load`. (What `Load` does otherwise: Model/Auth.lean.) -/
def newStore (c : Config) (db : Db) : Started :=
  let st := c.str (ascii "AuthClient.StoreType")
  if st = [] ∨ st = ascii "yaml" ∨ st = ascii "yml" then .running .yaml
  else if st = ascii "mongo" then
    match initDB c (ascii "Mongo") db with
    | none => .panic
    | some (true, _) => .running .mongo
    | some (false, _) => .panic
  else .panic

/-! ## The directory of the process -/

/-- Go's `strings.Index`: the least position where `sub` starts, `none` for -1. Used at msc_server/bootstrap.go:62. -/
def index (sub : Bytes) : Bytes → Option Nat
  | [] => if sub = [] then some 0 else none
  | c :: cs => if sub.isPrefixOf (c :: cs) then some 0 else (index sub cs).map (· + 1)

/-- msc_server/bootstrap.go:53-73, msc_client/bootstrap.go:61-81 `setBasePath`: the variable BasePath, empty before. `cur` is what
`os.Getwd` gives, `args` is os.Args. (Without a working directory `log.Fatal` ends the process; not modelled.) -/
def basePath (project cur : Bytes) (args : List Bytes) : Bytes :=
  (if project.length ≠ 0 ∧ cur.length > project.length ∧ args.length > 1 ∧ (ascii "-test").isPrefixOf (args[1]?.getD []) then
    match index project cur with
    | some (i + 1) => cur.take (i + 1) ++ project
    | _ => []
  else cur) ++ ascii "/"

end Gosms.Startup
