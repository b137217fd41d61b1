import Verif.Tests.Support
import Verif.Concrete.X509
import Verif.Concrete.Attestations

/-! # The tests of attestations -/

namespace Ssh.Tests
open Ssh.Concrete

-- tests/fido-lite.rs: verify_and_parse_auth_data_yubikey_bio
#guard holds (verifyAuthData realX509 C u2fRoot bioAuthData bioSig (C.sha256 bioClient) (-7) bioCert none) fun v => v.transports == some [.usb] && v.aaguid == some [216, 82, 45, 159, 87, 91, 72, 102, 136, 169, 186, 153, 250, 2, 243, 91] && some v.authData.aaguid == v.aaguid && v.authData.rpidHash == [159, 134, 208, 129, 136, 76, 125, 101, 154, 47, 234, 160, 197, 90, 208, 21, 163, 191, 79, 27, 43, 11, 130, 44, 209, 93, 108, 21, 176, 240, 10, 8] && v.firmware == some "5.5.6".toList

-- tests/fido-lite.rs: verify_and_parse_auth_data_yubikey_5c_nfc
#guard holds (verifyAuthData realX509 C u2fRoot nfcAuthData nfcSig (C.sha256 nfcClient) (-7) nfcCert none) fun v => v.transports == some [.usb, .nfc] && v.aaguid == some [47, 192, 87, 159, 129, 19, 71, 234, 177, 22, 187, 90, 141, 185, 32, 42] && some v.authData.aaguid == v.aaguid && v.authData.rpidHash == [159, 134, 208, 129, 136, 76, 125, 101, 154, 47, 234, 160, 197, 90, 208, 21, 163, 191, 79, 27, 43, 11, 130, 44, 209, 93, 108, 21, 176, 240, 10, 8]

-- tests/yubikey-lite.rs: test_5c_attestation_verification
#guard holds (verifyCertificateChain realX509 pivRoot pivClient pivIntermediate none) fun v => v.serial == 11778047 && v.firmware == "5.2.4".toList && v.touchPolicy == 3 && v.pinPolicy == 1

end Ssh.Tests
