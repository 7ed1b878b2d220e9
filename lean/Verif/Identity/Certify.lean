import Verif.Identity.Model

/-!
# Obtaining certificates: from the identity service, and from SPIRE

Model of `linkerd/proxy/identity-client/src/{certify,token}.rs`, `linkerd/proxy/spire-client/src/{lib,api}.rs` and
`linkerd/app/src/spire.rs`.

Durations are whole nanoseconds. Files and replies are answers of the environment.
-/

namespace Verif.Identity

open Verif.ApiResolve (Id)

/-! ## The identity service -/

/-- A file that must not be empty: `TokenSource::load`, token.rs:15-23, and the reads of `Documents::load`,
certify.rs:52-60 and 68-76. `none`: the file cannot be read. -/
def nonEmpty (file : Option Bytes) : Option Bytes :=
  match file with
  | none => none
  | some b => if b.isEmpty then none else some b

/-- `Documents`, certify.rs:27-30. -/
structure Documents where
  key : Bytes
  csr : Bytes
  deriving DecidableEq, Repr

/-- `Documents::load`, certify.rs:45-79. -/
def Documents.load (csrFile keyFile : Option Bytes) : Option Documents :=
  match nonEmpty csrFile with
  | none => none
  | some csr =>
    match nonEmpty keyFile with
    | none => none
    | some key => some ⟨key, csr⟩

/-- `Config`, certify.rs:20-25, with the name of the request. -/
structure CertifyConf where
  name : Str
  docs : Documents
  minRefresh : Nat
  maxRefresh : Nat
  deriving DecidableEq, Repr

/-- `api::CertifyRequest`. -/
structure CertifyRequest where
  token : Bytes
  identity : Str
  csr : Bytes
  deriving DecidableEq, Repr

/-- `api::CertifyResponse`; `validUntil`: absent, or not a time, or a time. -/
structure CertifyReply where
  leaf : Der
  intermediates : List Der
  validUntil : Option (Option Int)
  deriving DecidableEq, Repr

/-- What one round meets: the token's file, the reply (`none`: the call fails), and the clock where it is read. -/
structure Round where
  token : Option Bytes
  reply : Option CertifyReply
  checkedAt : Int
  setAt : Int
  sleptAt : Int
  deriving DecidableEq, Repr

/-- `certify`, certify.rs:148-186: the request sent, the credentials afterwards, and the expiry if it was `Ok`. -/
def certify (ext : Ext) (conf : CertifyConf) (c : Creds) (r : Round) : Option CertifyRequest × Creds × Option Int :=
  match nonEmpty r.token with
  | none => (none, c, none)
  | some token =>
    let req : CertifyRequest := ⟨token, conf.name, conf.docs.csr⟩
    match r.reply with
    | none => (some req, c, none)
    | some rsp =>
      match rsp.validUntil with
      | none => (some req, c, none)
      | some none => (some req, c, none)
      | some (some expiry) =>
        if expiry ≤ r.checkedAt then (some req, c, none)
        else
          match c.setCertificate ext ⟨rsp.leaf, rsp.intermediates, conf.docs.key, expiry, r.setAt⟩ with
          | (c', true) => (some req, c', some expiry)
          | (c', false) => (some req, c', none)

/-- The largest duration, in nanoseconds, plus one. -/
def durationLimit : Nat := 2 ^ 64 * 1000000000

/-- `refresh_in`, certify.rs:192-203; `none` is a panic: the multiplication overflows. -/
def refreshIn (conf : CertifyConf) (expiry now : Int) : Option Nat :=
  if now ≤ expiry then
    let d := (expiry - now).toNat
    if durationLimit ≤ d * 7 then none
    else
      let lifetime := d * 7 / 10
      if lifetime < conf.minRefresh then some conf.minRefresh
      else if conf.maxRefresh < lifetime then some conf.maxRefresh
      else some lifetime
  else some conf.minRefresh

/-- The task of `Certify::run`, certify.rs:91-132: the credentials, `curr_expiry`, what was sent, how long it slept after each
round, and whether it panicked. -/
structure Certifier where
  creds : Creds
  expiry : Int
  requests : List CertifyRequest
  sleeps : List Nat
  panicked : Bool
  deriving DecidableEq, Repr

def Certifier.new (s : Store) : Certifier := ⟨Creds.new s, 0, [], [], false⟩

/-- One turn of the loop, certify.rs:102-131. -/
def Certifier.round (ext : Ext) (conf : CertifyConf) (st : Certifier) (r : Round) : Certifier :=
  if st.panicked then st
  else
    let (req, creds, res) := certify ext conf st.creds r
    let expiry := res.getD st.expiry
    let st := { st with creds := creds, expiry := expiry, requests := st.requests ++ req.toList }
    match refreshIn conf expiry r.sleptAt with
    | none => { st with panicked := true }
    | some d => { st with sleeps := st.sleeps ++ [d] }

def Certifier.run (ext : Ext) (conf : CertifyConf) (st : Certifier) (rs : List Round) : Certifier :=
  rs.foldl (Certifier.round ext conf) st

/-! ## SPIRE -/

/-- `api::X509svid`. -/
structure ApiSvid where
  spiffeId : Str
  cert : Bytes
  key : Bytes
  deriving DecidableEq, Repr

/-- `Svid`, spire-client/src/api.rs:24-29. -/
structure Svid where
  id : Id
  leaf : Der
  intermediates : List Der
  key : Bytes
  deriving DecidableEq, Repr

/-- `Svid::try_from`, api.rs:83-110. `blocks` is `asn1::from_der` with `to_der` of each block. -/
def Svid.tryFrom (ext : Ext) (blocks : Bytes → Option (List Der)) (pb : ApiSvid) : Option Svid :=
  if pb.key.isEmpty then none
  else match blocks pb.cert with
    | none => none
    | some [] => none
    | some (leaf :: intermediates) =>
      match ext.parseUrl pb.spiffeId with
      | none => none
      | some u => some ⟨.uri u, leaf, intermediates, pb.key⟩

/-- `SvidUpdate`, api.rs:31-34: a map by identity, as a list of entries with distinct keys. -/
abbrev SvidUpdate := List (Id × Svid)

/-- `HashMap::insert`. -/
def insertSvid (m : SvidUpdate) (s : Svid) : SvidUpdate := m.filter (fun e => e.1 != s.id) ++ [(s.id, s)]

/-- `SvidUpdate::new`, api.rs:49-56, of what the closure of `Api::call`, api.rs:162-175, keeps of a message. -/
def SvidUpdate.ofMessage (ext : Ext) (blocks : Bytes → Option (List Der)) (msg : List ApiSvid) : SvidUpdate :=
  (msg.filterMap (Svid.tryFrom ext blocks)).foldl insertSvid []

/-- `process_svid`, api.rs:203-218, at this time: the credentials, and whether it was `Ok`. The expiry is in seconds, and
must not be before the epoch. -/
def processSvid (ext : Ext) (c : Creds) (update : SvidUpdate) (id : Id) (now : Int) : Creds × Bool :=
  match update.find? fun e => e.1 == id with
  | none => (c, false)
  | some (_, svid) =>
    match ext.notAfter svid.leaf with
    | none => (c, false)
    | some exp =>
      if exp < 0 then (c, false)
      else c.setCertificate ext ⟨svid.leaf, svid.intermediates, svid.key, exp * 1000000000, now⟩

/-- The task of `consume_updates`, spire-client/src/lib.rs:40-57: the watch's value with whether the task has yet to see it;
whether the watch's sender is there, whether the task runs; the credentials. -/
structure Consumer where
  value : SvidUpdate
  fresh : Bool
  open_ : Bool
  running : Bool
  creds : Creds
  deriving DecidableEq, Repr

/-- The update the watch was opened with is the first to be processed. -/
def Consumer.new (s : Store) (first : SvidUpdate) : Consumer := ⟨first, true, true, true, Creds.new s⟩

inductive SpireOp where
  | publish (u : SvidUpdate)
  | close
  | poll (now : Int)
  deriving DecidableEq, Repr

/-- lib.rs:47-56. A value that was not yet seen is seen even if the sender is gone. -/
def Consumer.step (ext : Ext) (id : Id) (s : Consumer) : SpireOp → Consumer
  | .publish u => if s.open_ then { s with value := u, fresh := true } else s
  | .close => { s with open_ := false }
  | .poll now =>
    if s.running then
      if s.fresh then { s with fresh := false, creds := (processSvid ext s.creds s.value id now).1 }
      else if s.open_ then s
      else { s with running := false }
    else s

def Consumer.run (ext : Ext) (id : Id) (s : Consumer) (ops : List SpireOp) : Consumer := ops.foldl (Consumer.step ext id) s

/-- The first steps of `Spire::run`, lib.rs:25-37, with `Client::call`, app/src/spire.rs:39-85: the socket is connected to,
then the watch opened; `none` is a panic. -/
def spireStart (s : Store) (connect : Bool) (opened : Option SvidUpdate) : Option Consumer :=
  if connect then opened.map (Consumer.new s) else none

end Verif.Identity
