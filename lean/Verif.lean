import Verif.Sm3.Props
import Verif.Sm4.Props
import Verif.Sm2.SignProps
import Verif.Sm2.EncProps
import Verif.Sm2.Amd64.EndToEnd
import Verif.Sm2.Asm.RealProps
import Verif.Sm2.Arm64.Props
import Verif.Sm2.ExternalProps
import Verif.Keys.PubProps
import Verif.Tls.Lru
import Verif.Tls.TicketProps
import Verif.Tls.FinishedProps
import Verif.Tls.HonestProps
import Verif.Tls.PaddingProps
import Verif.Tls.WriteProps
import Verif.Tls.Live
import Verif.Tls.RecordExamples
import Verif.Tls.InterlockProps
import Verif.X509.Complete
import Verif.X509.ExtProps
import Verif.X509.CertProps
import Verif.X509.IssueProps
import Verif.X509.IssueExample
import Verif.X509.CsrProps
import Verif.X509.CrlProps
import Verif.X509.CsrExample
import Verif.Subtle
import Verif.Tls.MessagesDispatch
import Verif.Tls.SessionStateSafe
import Verif.Tls.GmKeyAgreement
import Verif.Tls.KeyAgreementProps
import Verif.Tls.Forward
import Verif.Tls.Renegotiation
import Verif.Tls.RenegBind
import Verif.Keys.KeyPair
import Verif.Tls.ServerAuthProps
import Verif.Tls.ServerFlight
import Verif.Tls.HandshakeProps
import Verif.Tls.IvProps
import Verif.Tls.CloseProps
import Verif.Tls.FlightProps
import Verif.Tls.LocksProps
import Verif.Tls.ResumeProps
import Verif.Tls.SingleCertProps
import Verif.Tls.DialProps
import Verif.Tls.TicketRace
import Verif.X509.ConstraintProps
import Verif.X509.StrictProps
import Verif.Keys.Rsa
import Verif.Keys.RsaProps
import Verif.X509.SystemRoots
import Verif.Tls.Blocks
import Verif.Tls.BlocksProps
import Verif.Tls.BlocksRead
import Verif.Tls.ConfigForClient
import Verif.Sm2.Asm.OrdClaims
import Verif.Sm2.Asm.SelectClaims
import Verif.Tls.Sizing
import Verif.Tls.HsProg
import Verif.Tls.HsItems
import Verif.Tls.HsRun
import Verif.Tls.HsSafe
import Verif.Tls.HsExamples
import Verif.Tls.HsAlerts
import Verif.Tls.HsKeys
import Verif.Tls.SrvProg
import Verif.Tls.SrvItems
import Verif.Tls.SrvRun
import Verif.Tls.SrvExamples
import Verif.Tls.SrvAlerts
import Verif.Tls.SrvKeys
import Verif.Tls.HsWireProps
import Verif.Tls.ReturnsHs
import Verif.Tls.SlicesConn
import Verif.Tls.SlicesWrite
import Verif.Tls.ConnState
import Verif.Tls.ConnStateExamples
import Verif.Tls.SessionCache
import Verif.Tls.SessionCacheExamples
import Verif.X509.Many
import Verif.X509.ManyExample
import Verif.Tls.TicketChain
import Verif.Tls.TicketChainExamples
