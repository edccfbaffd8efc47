import Verif.Model.Auth
import Verif.Model.Process
import Verif.Model.Startup

/-!
# The configuration that is shipped

What the configuration files in the repository say, as far as the two processes have to agree on it: the accounts (the files of
the two account directories are the same), the ports and the addresses, and the kind of account store.
-/

namespace Gosms.Shipped

/-- How the server and the client name a protocol when they look an account up: msc_server/server/server.go:22-24,
msc_client/session/session.go:41-43. -/
def name : Proto → Bytes
  | .cmpp => ascii "cmpp"
  | .sgip => ascii "sgip"
  | .smgp => ascii "smgp"

/-- The client ids in msc_client/config/config.yaml:25, 35, 45 (`client-id`). -/
def clientId : Proto → Bytes
  | .cmpp => ascii "123456"
  | .sgip => ascii "3037196688"
  | .smgp => ascii "12345678"

/-- The names of the account files: msc_server/config/yml_store and msc_client/config/yml_store. -/
def fileName : Proto → Bytes
  | .cmpp => ascii "cmpp_123456.yaml"
  | .sgip => ascii "sgip_3037196688.yaml"
  | .smgp => ascii "smgp_12345678.yml"

/-- What the account files say: msc_server/config/yml_store/cmpp_123456.yaml:1-18, sgip_3037196688.yaml:1-19,
smgp_12345678.yml:1-18; msc_client/config/yml_store has the same files. Two hours are 7200·10⁹ nanoseconds. -/
def client (p : Proto) : Auth.Client where
  clientId := clientId p
  loginName := if p = .sgip then ascii "3037196688" else []
  sharedSecret := ascii "shared secret"
  version := 48
  needReport := 1
  smsDisplayNo := ascii "95566"
  serviceId := ascii "myService"
  defaultMsgLevel := if p = .smgp then 3 else 9
  feeUserType := 2
  feeType := ascii "05"
  feeCode := ascii "free"
  mtValidDuration := 7200000000000
  maxConns := 4
  mtWindowSize := 16
  throughput := 1000

/-- The account directory, in the order `ReadDir` gives (by name); `data p` are the bytes of a file.
auth/yaml_store.go:23-27 -/
def files (data : Proto → Bytes) : List Auth.File :=
  [⟨fileName .cmpp, false, data .cmpp⟩, ⟨fileName .sgip, false, data .sgip⟩, ⟨fileName .smgp, false, data .smgp⟩]

/-- The ports in msc_server/config/config.yaml:6-20. -/
def ports : Process.Conf where
  port := fun p => match p with | .cmpp => 10086 | .sgip => 10010 | .smgp => 10000
  pprof := true
  pprofPort := 10088

/-- The addresses in msc_client/config/config.yaml:26, 36, 46 (`address`). -/
def address : Proto → Bytes
  | .cmpp => ascii "127.0.0.1:10086"
  | .sgip => ascii "127.0.0.1:10010"
  | .smgp => ascii "127.0.0.1:10000"

/-- The connections per carrier in msc_client/config/config.yaml:28, 38, 48 (`max-conns`). -/
def clientConns : Proto → Int := fun _ => 4

/-- The store both processes are configured with: msc_server/config/config.yaml:34-40, msc_client/config/config.yaml:9-15. -/
def StoreSettings (c : Startup.Config) : Prop :=
  c.str (ascii "AuthClient.StoreType") = ascii "mongo" ∧
  c.str (ascii "Mongo.URI") = ascii "mongodb+srv://<user>:<passwd>@cluster0.ppiyq4w.mongodb.net/test"

end Gosms.Shipped
