import Verif.Tls.HandshakeProps
/-!
The abbreviated handshake that resumes a session, on both ends: tls/handshake_client.go and tls/handshake_server.go (standard),
tls/gm_handshake_client_double.go and tls/gm_handshake_server_double.go (GM). How it comes to resumption is in `Negotiation`; tickets are in `Ticket`.

Simplifications as in `ClientFull` and `ServerAuth`. `establishKeys` (keys from the master secret: C41) is not repeated here.
-/
namespace Verif.Tls
open Verif Verif.Tls.Wire

/-- `ClientSessionState`, tls/common.go:199-208 -/
structure SavedSession where
  ticket : Bytes
  vers : Version
  suite : U16
  master : Bytes
  certs : List X509.Cert
  chains : List (List X509.Cert)

/-- what the client has after a resumed handshake -/
structure ClientResumed where
  /-- `c.peerCertificates`, `c.verifiedChains` -/
  certs : List X509.Cert
  chains : List (List X509.Cert)
  master : Bytes
  /-- `hs.session`: what is cached next -/
  session : SavedSession
  switched : Bool
  fh : FinishedHash
  sent : List Item
  rest : List Item

/-- `readSessionTicket` stores a new session if there is a ticket: tls/handshake_client.go:690-701, gm: 537-548 -/
def newSession (S : ClientHs) (s : SavedSession) : Option Bytes → SavedSession
  | some t => { ticket := t, vers := S.vers, suite := S.suite.id, master := s.master, certs := s.certs, chains := s.chains }
  | none => s

/-- tls/handshake_client.go:236-270, 640-643, tls/gm_handshake_client_double.go:101-135, 487-490: the abbreviated handshake after the ServerHello. `s` is the cached session
that the ServerHello resumed; its master secret and certificates are restored. -/
def clientResume (E : AuthEnv) (S : ClientHs) (s : SavedSession) (hellos : List Bytes) (items : List Item) : Res ClientResumed := do
  let fh ← S.newHash E
  let fh ← fh.discardHandshakeBuffer.writes hellos
  let d ← clientFinish S ⟨s.certs, s.chains, none, s.master, fh, [], items⟩ items
  let (fh, sent) ← clientSendFinished S s.master d.fh
  .ok ⟨s.certs, s.chains, s.master, newSession S s d.ticket, d.switched, fh, sent, d.rest⟩

/-- what the server has sent in a resumed handshake -/
structure ServerResuming where
  peer : PeerId
  fh : FinishedHash
  sent : List Item

/-- `sendSessionTicket`, the state sealed: tls/handshake_server.go:625-630, gm: 590-595. `hs.certsFromClient` is what `processCertsFromClient` was given. -/
def renewedState (S : ServerHs) (st : SessionState) : SessionState :=
  { vers := S.vers, cipherSuite := S.suite.id, masterSecret := st.masterSecret, certificates := st.certificates, usedOldKey := false }

/-- tls/handshake_server.go:56-74, 335-360, tls/gm_handshake_server_double.go:54-72, 296-321: from `doResumeHandshake` to the server's Finished. Both kinds of server use
`newFinishedHash` here. `box` is `c.encryptTicket`. -/
def serverResuming (E : AuthEnv) (S : ServerHs) (st : SessionState) (box : SessionState → Res Bytes) (hellos : List Bytes) : Res ServerResuming := do
  let fh ← newFinishedHash E.hashes S.vers S.suite
  let fh ← fh.discardHandshakeBuffer.writes hellos
  let p ← serverResume E S st
  let (fh, t) ← sendTicket st.usedOldKey (box (renewedState S st)) fh
  let (vd, fh) ← fh.serverSum st.masterSecret
  let (fh, i) ← emit fh (.finished { raw := none, verifyData := vd })
  .ok ⟨p, fh, t ++ [.ccs, i]⟩

/-- the whole: tls/handshake_server.go:54-80, gm: 52-78; `items` is what the client sends after its hello -/
def serverResumed (E : AuthEnv) (S : ServerHs) (st : SessionState) (box : SessionState → Res Bytes) (hellos : List Bytes) (items : List Item) :
    Res (ServerResuming × FinishedHash × List Item) := do
  let w ← serverResuming E S st box hellos
  let (fh, rest) ← serverReadFinished S st.masterSecret w.fh items
  .ok (w, fh, rest)

end Verif.Tls
