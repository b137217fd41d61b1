import Verif.Props.Wire
import Verif.Props.Key
import Verif.Props.Verify
import Verif.Props.Cert
import Verif.Props.Utils
import Verif.Props.SshSig
import Verif.Props.PrivKey
import Verif.Props.AllowedSigner
import Verif.Props.Fido
import Verif.Props.FidoErrors
import Verif.Props.Piv
import Verif.Props.Token
import Verif.Props.Mozilla
import Verif.Props.Keys
import Verif.Props.Fields
import Verif.Props.CertText
import Verif.Props.Display
import Verif.Props.PrivText
import Verif.Props.Malleable
import Verif.Props.AllowedExact
import Verif.Props.ErrorText
import Verif.Props.Files
import Verif.Props.Devices
import Verif.Props.Policy
import Verif.Props.Calendar
import Verif.Props.Encrypted
import Verif.Props.Examples
import Verif.Props.Slots
import Verif.Props.TokenPrograms
import Verif.Props.Text
import Verif.Spec.Cut
import Verif.Lemmas.Cut
import Verif.Props.Cut
import Verif.Spec.Errors
import Verif.Lemmas.Errors
import Verif.Props.Errors
import Verif.Model.MozGenerate
import Verif.Spec.MozGenerate
import Verif.Props.MozGenerate
import Verif.Props.Stretch
import Verif.Concrete.Sha
import Verif.Concrete.Ec
import Verif.Concrete.Bcrypt
import Verif.Concrete.Crypto
import Verif.Concrete.X509
import Verif.Concrete.Attestations
import Verif.Concrete.Attested
import Verif.Concrete.Order
import Verif.Tests.Support
import Verif.Tests.Wire
import Verif.Tests.Keys
import Verif.Tests.Bcrypt
import Verif.Tests.Certs
import Verif.Tests.Create
import Verif.Tests.Signatures
import Verif.Tests.AllowedSigners
import Verif.Tests.Attestation
import Verif.Spec.Reasons
import Verif.Lemmas.Reasons
import Verif.Props.Reasons
import Verif.Spec.AllowedReasons
import Verif.Lemmas.AllowedReasons
import Verif.Props.AllowedReasons
import Verif.Spec.PivReasons
import Verif.Props.PivReasons
import Verif.Spec.TokenDialog
import Verif.Lemmas.TokenDialog
import Verif.Props.TokenDialog
import Verif.Spec.Written
import Verif.Lemmas.Written
import Verif.Props.Written
import Verif.Spec.Signing
import Verif.Props.Signing
import Verif.Spec.ReadExact
import Verif.Props.ReadExact
import Verif.Spec.Programs
import Verif.Props.ProgramsExact
import Verif.Spec.ErrorTexts
import Verif.Props.Outcomes
import Verif.Spec.ProgramDialogs
import Verif.Props.ProgramDialogs
import Verif.Spec.OneKey
import Verif.Spec.Debug
import Verif.Props.OneKey
import Verif.Model.Machine
import Verif.Model.Splitter
import Verif.Model.Debug
import Verif.Props.Machine
import Verif.Props.Splitter
import Verif.Props.Debug
import Verif.Props.EndToEnd
import Verif.Props.LineBreaks
import Verif.Props.Rsa
import Verif.Props.Curves
import Verif.Props.Issue
import Verif.Props.Real
import Verif.Props.Together
import Verif.Props.SecondSignatures
import Verif.Props.TwoMessages
import Verif.Props.OtherKey
import Verif.Props.Passphrase
import Verif.Spec.Attest
import Verif.Spec.OnCurve
import Verif.Props.RealAttestation
import Verif.Props.EverySecret
import Verif.Spec.KeyInfo
import Verif.Concrete.Der
import Verif.Props.KeyInfo
import Verif.Spec.RealToken
import Verif.Props.RealToken
import Verif.Spec.Chains
import Verif.Props.Chains
