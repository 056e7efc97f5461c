import Verif.Props.Base64
import Verif.Props.Ints
import Verif.Props.KeyWrap
import Verif.Props.CbcHmac
import Verif.Props.Kdf
import Verif.Props.Euclid
import Verif.Props.SignedBin
import Verif.Props.Ec
import Verif.Props.Ecdsa
import Verif.Props.Curves
import Verif.Props.EcMore
import Verif.Props.Gcm
import Verif.Props.GcmForgery
import Verif.Props.Jwt
import Verif.Props.JwsVerify
import Verif.Props.JwsSign
import Verif.Props.JwsExtra
import Verif.Props.JwsForms
import Verif.Props.JwsJson
import Verif.Props.Jwk
import Verif.Props.JwkMore
import Verif.Props.JwkHash
import Verif.Props.JwkKeys
import Verif.Props.JweSym
import Verif.Props.JweForgery
import Verif.Props.JweRsa
import Verif.Props.JweEc
import Verif.Props.JweAuth
import Verif.Props.JweGate
import Verif.Props.Pbkdf2
import Verif.Props.JwkLoad
import Verif.Props.JwkSet
import Verif.Props.JwsState
import Verif.Spec.JweForm
import Verif.Props.JweForm
import Verif.Props.JweHeader
import Verif.Props.JweState
import Verif.Props.JweOpen
import Verif.Model.JwkNew
import Verif.Props.JwkNew
import Verif.Props.JwkThumb
import Verif.Model.Leftover
import Verif.Props.Leftover
import Verif.Real.Aes
import Verif.Real.AesLaws
import Verif.Real.Sha
import Verif.Real.Rsa
import Verif.Real.RsaLaws
import Verif.Props.Real
import Verif.Props.Publish
import Verif.Props.Sendable
import Verif.Props.JwsTotal
import Verif.Props.Nested
import Verif.Props.Factory
import Verif.Props.Script
import Verif.Props.JweTotal
import Verif.Props.PublishEnc
import Verif.Props.Interop
import Verif.Props.JwsCurve
import Verif.Props.JweAgree
import Verif.Props.EcNonce
import Verif.Props.Predict
import Verif.Props.Reuse
import Verif.Props.Twin
import Verif.Props.WeakPoints
import Verif.Props.JweDirectEnc
import Verif.Props.JweDirectEc
import Verif.Props.JweDirectRsa
import Verif.Props.JweDirect
import Verif.Props.JweThreads
import Verif.Props.Threads
import Verif.Props.RsaJwk
import Verif.Props.JwkWidth
import Verif.Props.JsonInterop
import Verif.Props.RsaKeys
import Verif.Props.Pkcs
import Verif.Props.Items
import Verif.Props.JwsOutbound
import Verif.Props.JwsInterop
import Verif.Props.JweOther
import Verif.Props.JweKid
import Verif.Props.Retry
import Verif.Props.JsonRaises
import Verif.Props.JwkRaises
import Verif.Props.KeyHalves
import Verif.Props.CertText
import Verif.Props.Cert
import Verif.Props.JweRaises
import Verif.Props.JwsForget
import Verif.Props.JwkKid
import Verif.Props.EcUniform
import Verif.Props.Accessors
import Verif.Props.Raises
import Verif.Props.Oracle
import Verif.Model.Script
import Verif.Vectors
