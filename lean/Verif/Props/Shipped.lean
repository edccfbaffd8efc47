import Verif.Model.Shipped
import Verif.Props.Auth
import Verif.Props.Process
import Verif.Props.Startup
import Verif.Props.TickExchange

/-!
# C133: client and server work together as they are shipped

The theorems on accounts (C52, C64), logins (C94), ports (C113) and the account store (C88), at the configuration in the
repository: what a user gets who starts both processes without editing it.
-/

namespace Gosms.Shipped
open Auth ServerTraffic LoginExchange
open Gosms.Spec.ServerTraffic

/-- The account of a protocol as both processes know it, with every field of the file. -/
def account (p : Proto) : AuthConf where
  isp := name p
  clientId := clientId p
  loginName := if p = .sgip then ascii "3037196688" else []
  sharedSecret := ascii "shared secret"
  version := 48
  needReport := 1
  smsDisplayNo := ascii "95566"
  serviceId := ascii "myService"
  defaultMsgLevel := if p = .smgp then 3 else 9
  feeUserType := 2
  feeType := ascii "05"
  feeCode := ascii "free"
  mtValidDuration := 7200000000000
  maxConns := 4
  mtWindowSize := 16
  throughput := 1000

/-- **C133: each account is found under the client's id**, by server and client alike, after every load of the shipped directory,
whatever was loaded before. (`parse` reads the files as the model of them says.) -/
theorem shipped_accounts_found (uni : Bytes → Bytes) (parse : Bytes → Option Client) (data : Proto → Bytes)
    (hparse : ∀ p, parse (data p) = some (client p)) (m : Cache) :
    ∃ m', yamlLoad uni parse m (files data) = some m' ∧
      ∀ p, findAuthConf (findByCid uni m') (name p) (clientId p) = some (some (account p)) := by
  have hk : ∀ p, keyOf (fileName p) = name p ++ ascii "_" ++ clientId p := by
    intro p; cases p <;> decide
  have hl : ∀ p, toLower uni (name p ++ ascii "_" ++ clientId p) = name p ++ ascii "_" ++ clientId p := by
    intro p
    unfold toLower
    have h1 : ((name p ++ ascii "_" ++ clientId p).all (· < 0x80)) = true := by cases p <;> decide
    rw [if_pos h1]
    cases p <;> decide
  have hn : ∀ p, toLower uni (name p) = name p := by
    intro p
    unfold toLower
    have h1 : ((name p).all (· < 0x80)) = true := by cases p <;> decide
    rw [if_pos h1]
    cases p <;> decide
  have step : ∀ p m, loadFile uni parse m ⟨fileName p, false, data p⟩ =
      some (m.set (name p ++ ascii "_" ++ clientId p) { client p with isp := name p }) := by
    intro p m
    have hne : name p ++ ascii "_" ++ clientId p ≠ [] := by cases p <;> decide
    have h4 : ¬ (name p ++ ascii "_" ++ clientId p).length < 4 := by cases p <;> decide
    have ht : (name p ++ ascii "_" ++ clientId p).take 4 = name p := by cases p <;> decide
    simp only [loadFile, hk, hl, unmarshal, hparse, if_neg hne, if_neg h4, ht, Bool.false_eq_true, if_false]
  refine ⟨((m.set (name .cmpp ++ ascii "_" ++ clientId .cmpp) { client .cmpp with isp := name .cmpp }).set
    (name .sgip ++ ascii "_" ++ clientId .sgip) { client .sgip with isp := name .sgip }).set
    (name .smgp ++ ascii "_" ++ clientId .smgp) { client .smgp with isp := name .smgp }, ?_, ?_⟩
  · show (files data).foldlM (loadFile uni parse) m = some _
    simp only [files, List.foldlM_cons, List.foldlM_nil, step, Option.bind_eq_bind, Option.bind_some]
    rfl
  · intro p
    rw [findAuthConf_exact]
    have hf : findByCid uni ((((m.set (name .cmpp ++ ascii "_" ++ clientId .cmpp) { client .cmpp with isp := name .cmpp }).set
        (name .sgip ++ ascii "_" ++ clientId .sgip) { client .sgip with isp := name .sgip }).set
        (name .smgp ++ ascii "_" ++ clientId .smgp) { client .smgp with isp := name .smgp })) (name p) (clientId p) =
        some { client p with isp := name p } := by
      have d1 : name .cmpp ++ ascii "_" ++ clientId .cmpp ≠ name .sgip ++ ascii "_" ++ clientId .sgip := by decide
      have d2 : name .cmpp ++ ascii "_" ++ clientId .cmpp ≠ name .smgp ++ ascii "_" ++ clientId .smgp := by decide
      have d3 : name .sgip ++ ascii "_" ++ clientId .sgip ≠ name .smgp ++ ascii "_" ++ clientId .smgp := by decide
      unfold findByCid
      rw [hn]
      cases p <;> simp only [Cache.set, d1, d2, d3, if_false, if_true]
    rw [hf]
    rfl

/-- The lookup of the server after such a load. -/
def lookup (uni : Bytes → Bytes) (m : Cache) (p : Proto) (id : Bytes) : Option AuthConf :=
  (findAuthConf (findByCid uni m) (name p) id).getD none

theorem sendable (p : Proto) : Sendable p (account p) := by
  cases p
  · show Spec.Fits 6 _; decide
  · exact ⟨by decide, by decide⟩
  · show _ = 8; decide

/-- With the shipped accounts on both sides the server admits the client exactly while the account has fewer than four sessions. -/
theorem admits_iff (md5 : Bytes → Bytes) (p : Proto) (clock : Clock) (find : Bytes → Option AuthConf) (sessions : Int)
    (hfind : find (clientId p) = some (account p)) :
    (∃ theirs, Admits md5 p (account p) clock find sessions theirs) ↔ sessions < clientConns p := by
  constructor
  · rintro ⟨t, h1, _, _, h4⟩
    have : t = account p := by
      rw [show (account p).clientId = clientId p from rfl, hfind] at h1
      exact (Option.some.inj h1).symm
    subst this
    exact h4
  · intro h
    refine ⟨account p, hfind, fun _ => rfl, ?_, h⟩
    cases p
    · rfl
    · exact ⟨by decide, rfl⟩
    · rfl

/-- **C133: the shipped client logs in to the shipped server.** Whatever the clock, the sequence number, the hash function and the history of the
connection: a login the shipped client sends is answered, and both sides are logged in exactly while the account has fewer other
sessions than the shipped client opens. So the shipped client gets all its connections if nobody else uses its account. -/
theorem shipped_login (gb : Bytes → Option Bytes) (e : Env) (h16 : ∀ x, (e.md5 x).length = 16) (t0 : Int)
    (uni : Bytes → Bytes) (parse : Bytes → Option Client) (data : Proto → Bytes) (hparse : ∀ p, parse (data p) = some (client p))
    (m m' : Cache) (hload : yamlLoad uni parse m (files data) = some m')
    (seq : Sgip.Seq3) (clock : Clock) (hclock : clock.Valid) (d : Draw) (hd : d.find = lookup uni m' e.proto) (now : Int)
    (a b : List ServerTicks.Step) :
    ∃ frame, ClientLogin.request e.md5 e.proto (account e.proto) seq clock = some frame ∧
      (((a ++ .base (arrives frame d) now :: b).filter
          (ServerTicks.onPacketSteps fun c _ _ _ => c = loginCmd e.proto)).length ≤ 1 →
       (ServerTicks.run gb e t0 (a ++ .base (arrives frame d) now :: b)).base.crashed = false →
       (ServerTicks.run gb e t0 (a ++ .base (arrives frame d) now :: b)).base.isOpen = true →
       ServerTicks.Settled gb e (ServerTicks.run gb e t0 (a ++ .base (arrives frame d) now :: b)) →
       ∃ f ∈ ServerTicks.frames (ServerTicks.run gb e t0 (a ++ .base (arrives frame d) now :: b)),
        command f = be32 (Spec.responseOf (loginCmd e.proto)) ∧
        (ClientLogin.newSession e.proto 48 false ⟨f, false⟩ = some .login ↔ d.sessions < clientConns e.proto) ∧
        ((ServerTicks.run gb e t0 (a ++ .base (arrives frame d) now :: b)).base.stat = .login ↔ d.sessions < clientConns e.proto)) := by
  obtain ⟨frame, hreq, _⟩ := request_fields e.md5 h16 e.proto (account e.proto) seq clock hclock
  obtain ⟨m'', h1, h2⟩ := shipped_accounts_found uni parse data hparse m
  have hm : m'' = m' := Option.some.inj (h1.symm.trans hload)
  subst hm
  have hf : d.find (clientId e.proto) = some (account e.proto) := by
    rw [hd, lookup, h2]; rfl
  have hadm := admits_iff e.md5 e.proto clock d.find d.sessions hf
  refine ⟨frame, hreq, fun hone hc ho hset => ?_⟩
  obtain ⟨f, q1, q2, q3, q4⟩ := ServerTicks.login_answered_partial gb e h16 t0 (account e.proto) (sendable e.proto) seq clock hclock frame
    hreq d now a b hone hc ho hset
  exact ⟨f, q1, q2, q3.trans hadm, q4.trans hadm⟩

theorem shipped_good (taken : List Int) (hfree : ∀ q ∈ ([10086, 10010, 10000, 10088] : List Int), q ∉ taken) :
    Process.Spec.Good taken ports := by
  refine ⟨fun p => ?_, fun p p' h => ?_, fun _ => ⟨by decide, by decide, hfree _ (by decide), fun p => by cases p <;> decide⟩⟩
  · cases p
    · exact ⟨by decide, by decide, hfree _ (by decide)⟩
    · exact ⟨by decide, by decide, hfree _ (by decide)⟩
    · exact ⟨by decide, by decide, hfree _ (by decide)⟩
  · cases p <;> cases p' <;> first | rfl | (exact absurd h (by decide))

/-- **C133: as shipped the server also serves the debugging pages, at port 10088**, if the four ports are free: under every schedule. -/
theorem shipped_debug_served (taken : List Int) (hfree : ∀ q ∈ ([10086, 10010, 10000, 10088] : List Int), q ∉ taken)
    (steps : List Process.Step) (hs : ∀ w, Process.Step.stops w ∉ steps) (hm : 4 ≤ steps.count .main) (any : Int) :
    (Process.Who.pprof, 10088) ∈ (Process.run taken ports (steps ++ [.bind .pprof any])).serving :=
  (Process.each_protocol_served_partial taken ports (shipped_good taken hfree) steps hs hm).2.1 any rfl

example : (Process.Who.pprof, 10088) ∈ (Process.run [22, 80] ports [.main, .main, .main, .main, .bind .pprof 0]).serving :=
  shipped_debug_served [22, 80] (by decide) [.main, .main, .main, .main] (by simp) (by decide) 0

/-- **C133: the shipped server serves each protocol where the shipped client calls it**, if the four ports are free: under every schedule each
protocol is served, at the port in the client's address. -/
theorem shipped_ports (taken : List Int) (hfree : ∀ q ∈ ([10086, 10010, 10000, 10088] : List Int), q ∉ taken)
    (steps : List Process.Step) (hs : ∀ w, Process.Step.stops w ∉ steps) (hm : 4 ≤ steps.count .main) (p : Proto) (any : Int) :
    ∃ port : Nat, (Process.Who.server p, (port : Int)) ∈ (Process.run taken ports (steps ++ [.bind (.server p) any])).serving ∧
      address p = ascii "127.0.0.1:" ++ ascii (toString port) := by
  have h := (Process.each_protocol_served_partial taken ports (shipped_good taken hfree) steps hs hm).1 p any
  cases p
  · exact ⟨10086, h, by decide⟩
  · exact ⟨10010, h, by decide⟩
  · exact ⟨10000, h, by decide⟩

/-- **C133 fails: as shipped, neither process starts by itself.** The store is a database whose address has placeholders for the credentials: without
both credentials in the environment, or without a database that answers at the address with them filled in, the start panics - whatever
else is configured, and although the accounts are there as files. -/
theorem shipped_store_fails (c : Startup.Config) (h : StoreSettings c) (db : Startup.Db) :
    Startup.newStore c db ≠ .panic ↔
      db.user ≠ [] ∧ db.passwd ≠ [] ∧
        db.reachable (Startup.mongoUri (ascii "mongodb+srv://<user>:<passwd>@cluster0.ppiyq4w.mongodb.net/test") db.user db.passwd) = true := by
  have key := Startup.store_starts_partial c db
  rw [h.1, h.2] at key
  have e1 : (∃ s, Startup.newStore c db = .running s) ↔ Startup.newStore c db ≠ .panic := by
    cases Startup.newStore c db with
    | panic => simp
    | running s => simp
  rw [← e1, key]
  have n1 : ascii "mongo" ∉ [[], ascii "yaml", ascii "yml"] := by decide
  have n2 : ascii "mongodb+srv://<user>:<passwd>@cluster0.ppiyq4w.mongodb.net/test" ≠ [] := by decide
  constructor
  · rintro (h' | ⟨_, _, h'⟩)
    · exact absurd h' n1
    · exact h'
  · intro h'
    exact Or.inr ⟨rfl, n2, h'⟩

/-- Without credentials in the environment it panics; with the store set to files it starts. -/
example : (∀ c, StoreSettings c → Startup.newStore c ⟨[], [], fun _ => true⟩ = .panic) ∧
    (∀ c : Startup.Config, c.str (ascii "AuthClient.StoreType") = ascii "yaml" → ∀ db, Startup.newStore c db = .running .yaml) := by
  refine ⟨fun c h => ?_, fun c h db => ?_⟩
  · apply Classical.byContradiction
    intro hn
    exact ((shipped_store_fails c h _).1 hn).1 rfl
  · unfold Startup.newStore
    simp only [h]
    rw [if_pos (by decide)]

/-- The hypotheses of the other theorems are met: a reader of the files, free ports, four steps of the main goroutine. -/
example : ∃ (parse : Bytes → Option Client) (data : Proto → Bytes), ∀ p, parse (data p) = some (client p) :=
  ⟨fun b => if b = [0] then some (client .cmpp) else if b = [1] then some (client .sgip) else some (client .smgp),
   fun p => match p with | .cmpp => [0] | .sgip => [1] | .smgp => [2], fun p => by cases p <;> decide⟩

example : 4 ≤ ([.main, .main, .main, .main] : List Process.Step).count .main ∧
    ∀ q ∈ ([10086, 10010, 10000, 10088] : List Int), q ∉ ([22, 80] : List Int) := by decide

end Gosms.Shipped
