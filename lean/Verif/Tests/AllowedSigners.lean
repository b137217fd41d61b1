import Verif.Tests.Support
import Verif.Props.Calendar

/-! # The tests of allowed signers -/

namespace Ssh.Tests
open Ssh.Concrete

/-- The calendar, in a time zone that is UTC. -/
def T : Chrono := plainChrono 0

-- tests/allowed-signer.rs: parse_good_allowed_signer
#guard holds (AllowedSigner.fromString T "mitchell@confurious.io ssh-ed25519 AAAAC3NzaC1lZDI1NTE5AAAAIDO0VQD9TIdICZLWFWwtf7s8/aENve8twGTEmNV0myh5".toList) fun a => shows a.key "SHA256:QAtqtvvCePelMMUNPP7madH2zNa1ATxX1nt9L/0C5+M" && a.principals == ["mitchell@confurious.io".toList] && !a.certAuthority && a.namespaces == none && a.validAfter == none && a.validBefore == none

-- tests/allowed-signer.rs: parse_good_allowed_signer_with_quoted_principals
#guard holds (AllowedSigner.fromString T "\"mitchell@confurious.io,mitchell\" ssh-ed25519 AAAAC3NzaC1lZDI1NTE5AAAAIDO0VQD9TIdICZLWFWwtf7s8/aENve8twGTEmNV0myh5".toList) fun a => shows a.key "SHA256:QAtqtvvCePelMMUNPP7madH2zNa1ATxX1nt9L/0C5+M" && a.principals == ["mitchell@confurious.io".toList, "mitchell".toList] && !a.certAuthority && a.namespaces == none && a.validAfter == none && a.validBefore == none

-- tests/allowed-signer.rs: parse_good_allowed_signer_with_options
#guard holds (AllowedSigner.fromString T "mitchell@confurious.io,mitchel2@confurious.io cert-authority namespaces=\"thanh,mitchell\" valid-before=\"20240505Z\" ssh-ed25519 AAAAC3NzaC1lZDI1NTE5AAAAIDO0VQD9TIdICZLWFWwtf7s8/aENve8twGTEmNV0myh5".toList) fun a => shows a.key "SHA256:QAtqtvvCePelMMUNPP7madH2zNa1ATxX1nt9L/0C5+M" && a.principals == ["mitchell@confurious.io".toList, "mitchel2@confurious.io".toList] && a.namespaces == some ["thanh".toList, "mitchell".toList] && a.validBefore == some 1714867200 && a.certAuthority && a.validAfter == none

-- tests/allowed-signer.rs: parse_good_allowed_signer_with_utc_timestamp
#guard holds (AllowedSigner.fromString T "mitchell@confurious.io,mitchel2@confurious.io cert-authority namespaces=\"thanh,mitchell\" valid-after=20240505Z ssh-ed25519 AAAAC3NzaC1lZDI1NTE5AAAAIDO0VQD9TIdICZLWFWwtf7s8/aENve8twGTEmNV0myh5".toList) fun a => shows a.key "SHA256:QAtqtvvCePelMMUNPP7madH2zNa1ATxX1nt9L/0C5+M" && a.principals == ["mitchell@confurious.io".toList, "mitchel2@confurious.io".toList] && a.namespaces == some ["thanh".toList, "mitchell".toList] && a.validAfter == some 1714867200 && a.certAuthority && a.validBefore == none

-- tests/allowed-signer.rs: parse_good_allowed_signer_with_hm_timestamp
#guard holds (AllowedSigner.fromString T "mitchell@confurious.io,mitchel2@confurious.io cert-authority namespaces=\"thanh,mitchell\" valid-after=202405050102Z ssh-ed25519 AAAAC3NzaC1lZDI1NTE5AAAAIDO0VQD9TIdICZLWFWwtf7s8/aENve8twGTEmNV0myh5".toList) fun a => shows a.key "SHA256:QAtqtvvCePelMMUNPP7madH2zNa1ATxX1nt9L/0C5+M" && a.principals == ["mitchell@confurious.io".toList, "mitchel2@confurious.io".toList] && a.namespaces == some ["thanh".toList, "mitchell".toList] && a.validAfter == some 1714870920 && a.certAuthority && a.validBefore == none

-- tests/allowed-signer.rs: parse_good_allowed_signer_with_hms_timestamp
#guard holds (AllowedSigner.fromString T "mitchell@confurious.io,mitchel2@confurious.io cert-authority namespaces=\"thanh,mitchell\" valid-after=20240505010230Z ssh-ed25519 AAAAC3NzaC1lZDI1NTE5AAAAIDO0VQD9TIdICZLWFWwtf7s8/aENve8twGTEmNV0myh5".toList) fun a => shows a.key "SHA256:QAtqtvvCePelMMUNPP7madH2zNa1ATxX1nt9L/0C5+M" && a.principals == ["mitchell@confurious.io".toList, "mitchel2@confurious.io".toList] && a.namespaces == some ["thanh".toList, "mitchell".toList] && a.validAfter == some 1714870950 && a.certAuthority && a.validBefore == none

-- tests/allowed-signer.rs: parse_good_allowed_signer_with_consecutive_spaces
#guard holds (AllowedSigner.fromString T "mitchell@confurious.io,mitchel2@confurious.io    cert-authority    namespaces=\"thanh,#mitchell\" valid-before=\"20240505Z\" ssh-ed25519 AAAAC3NzaC1lZDI1NTE5AAAAIDO0VQD9TIdICZLWFWwtf7s8/aENve8twGTEmNV0myh5  ".toList) fun a => shows a.key "SHA256:QAtqtvvCePelMMUNPP7madH2zNa1ATxX1nt9L/0C5+M" && a.principals == ["mitchell@confurious.io".toList, "mitchel2@confurious.io".toList] && a.namespaces == some ["thanh".toList, "#mitchell".toList] && a.validBefore == some 1714867200 && a.certAuthority && a.validAfter == none

-- tests/allowed-signer.rs: parse_good_allowed_signer_with_empty_namespaces
#guard holds (AllowedSigner.fromString T "mitchell@confurious.io,mitchel2@confurious.io cert-authority namespaces=\"thanh,,mitchell\" ssh-ed25519 AAAAC3NzaC1lZDI1NTE5AAAAIDO0VQD9TIdICZLWFWwtf7s8/aENve8twGTEmNV0myh5".toList) fun a => shows a.key "SHA256:QAtqtvvCePelMMUNPP7madH2zNa1ATxX1nt9L/0C5+M" && a.principals == ["mitchell@confurious.io".toList, "mitchel2@confurious.io".toList] && a.namespaces == some ["thanh".toList, "mitchell".toList] && a.certAuthority && a.validAfter == none && a.validBefore == none

-- tests/allowed-signer.rs: parse_good_allowed_signer_with_space_in_namespaces
#guard holds (AllowedSigner.fromString T "mitchell@confurious.io,mitchel2@confurious.io cert-authority namespaces=\"thanh,mitchell   tech\" ssh-ed25519 AAAAC3NzaC1lZDI1NTE5AAAAIDO0VQD9TIdICZLWFWwtf7s8/aENve8twGTEmNV0myh5".toList) fun a => shows a.key "SHA256:QAtqtvvCePelMMUNPP7madH2zNa1ATxX1nt9L/0C5+M" && a.principals == ["mitchell@confurious.io".toList, "mitchel2@confurious.io".toList] && a.namespaces == some ["thanh".toList, "mitchell   tech".toList] && a.certAuthority && a.validAfter == none && a.validBefore == none

-- tests/allowed-signer.rs: parse_good_allowed_signer_with_unquoted_namespaces
#guard holds (AllowedSigner.fromString T "mitchell@confurious.io,mitchel2@confurious.io cert-authority namespaces=thanh,mitchell ssh-ed25519 AAAAC3NzaC1lZDI1NTE5AAAAIDO0VQD9TIdICZLWFWwtf7s8/aENve8twGTEmNV0myh5".toList) fun a => shows a.key "SHA256:QAtqtvvCePelMMUNPP7madH2zNa1ATxX1nt9L/0C5+M" && a.principals == ["mitchell@confurious.io".toList, "mitchel2@confurious.io".toList] && a.namespaces == some ["thanh".toList, "mitchell".toList] && a.certAuthority && a.validAfter == none && a.validBefore == none

-- tests/allowed-signer.rs: parse_bad_allowed_signer_with_wrong_key_type
#guard isErr (AllowedSigner.fromString T "mitchell@confurious.io ecdsa-sha2-nistp384 AAAAC3NzaC1lZDI1NTE5AAAAIDO0VQD9TIdICZLWFWwtf7s8/aENve8twGTEmNV0myh5".toList)

-- tests/allowed-signer.rs: parse_bad_allowed_signer_with_invalid_option
#guard isErr (AllowedSigner.fromString T "mitchell@confurious.io option=test ssh-ed25519 AAAAC3NzaC1lZDI1NTE5AAAAIDO0VQD9TIdICZLWFWwtf7s8/aENve8twGTEmNV0myh5".toList)

-- tests/allowed-signer.rs: parse_bad_allowed_signer_with_invalid_namespaces
#guard isErr (AllowedSigner.fromString T "mitchell@confurious.io namespaces=a\"test\" ssh-ed25519 AAAAC3NzaC1lZDI1NTE5AAAAIDO0VQD9TIdICZLWFWwtf7s8/aENve8twGTEmNV0myh5".toList)

-- tests/allowed-signer.rs: parse_bad_allowed_signer_with_invalid_namespaces
#guard isErr (AllowedSigner.fromString T "mitchell@confurious.io namespaces=\"tester,thanh\"\" ssh-ed25519 AAAAC3NzaC1lZDI1NTE5AAAAIDO0VQD9TIdICZLWFWwtf7s8/aENve8twGTEmNV0myh5".toList)

-- tests/allowed-signer.rs: parse_bad_allowed_signer_with_invalid_principals
#guard isErr (AllowedSigner.fromString T "mitchell@confurious.io ,thanh@timweri.me option=test ssh-ed25519 AAAAC3NzaC1lZDI1NTE5AAAAIDO0VQD9TIdICZLWFWwtf7s8/aENve8twGTEmNV0myh5".toList)

-- tests/allowed-signer.rs: parse_bad_allowed_signer_with_empty_principal
#guard isErr (AllowedSigner.fromString T "mitchell@confurious.io,,thanh@timweri.me option=test ssh-ed25519 AAAAC3NzaC1lZDI1NTE5AAAAIDO0VQD9TIdICZLWFWwtf7s8/aENve8twGTEmNV0myh5".toList)

-- tests/allowed-signer.rs: parse_bad_allowed_signer_with_timestamp_option
#guard isErr (AllowedSigner.fromString T "mitchell@confurious.io valid-before=-143 ssh-ed25519 AAAAC3NzaC1lZDI1NTE5AAAAIDO0VQD9TIdICZLWFWwtf7s8/aENve8twGTEmNV0myh5".toList)

-- tests/allowed-signer.rs: parse_bad_allowed_signer_with_conflicting_timestamps
#guard failsWith (AllowedSigner.fromString T "mitchell@confurious.io valid-before=20240505 valid-after=20240505 ssh-ed25519 AAAAC3NzaC1lZDI1NTE5AAAAIDO0VQD9TIdICZLWFWwtf7s8/aENve8twGTEmNV0myh5".toList) fun e => e == .invalidAllowedSigner .invalidTimestamps

-- tests/allowed-signer.rs: parse_bad_allowed_signer_with_duplicate_option
#guard failsWith (AllowedSigner.fromString T "mitchell@confurious.io namespaces=thanh namespaces=mitchell ssh-ed25519 AAAAC3NzaC1lZDI1NTE5AAAAIDO0VQD9TIdICZLWFWwtf7s8/aENve8twGTEmNV0myh5".toList) fun e => isDuplicate e

-- tests/allowed-signer.rs: parse_bad_allowed_signer_with_quoted_key
#guard failsWith (AllowedSigner.fromString T "mitchell@confurious.io \"ssh-ed25519\" AAAAC3NzaC1lZDI1NTE5AAAAIDO0VQD9TIdICZLWFWwtf7s8/aENve8twGTEmNV0myh5".toList) fun e => e == .invalidAllowedSigner .invalidKey

-- tests/allowed-signer.rs: parse_bad_allowed_signer_with_quoted_key
#guard failsWith (AllowedSigner.fromString T "mitchell@confurious.io \"ssh-ed25519 AAAAC3NzaC1lZDI1NTE5AAAAIDO0VQD9TIdICZLWFWwtf7s8/aENve8twGTEmNV0myh5\"".toList) fun e => e == .invalidAllowedSigner .invalidQuotes

-- tests/allowed-signer.rs: parse_bad_allowed_signer_with_quoted_key
#guard failsWith (AllowedSigner.fromString T "mitchell@confurious.io ssh-ed25519 \"AAAAC3NzaC1lZDI1NTE5AAAAIDO0VQD9TIdICZLWFWwtf7s8/aENve8twGTEmNV0myh5\"".toList) fun e => e == .invalidAllowedSigner .invalidQuotes

-- tests/allowed-signer.rs: parse_bad_allowed_signer_with_invalid_timestamp
#guard isErr (AllowedSigner.fromString T "mitchell@confurious.io valid-before=1941 \"ssh-ed25519\" AAAAC3NzaC1lZDI1NTE5AAAAIDO0VQD9TIdICZLWFWwtf7s8/aENve8twGTEmNV0myh5".toList)

-- tests/allowed-signer.rs: parse_bad_allowed_signer_with_invalid_timestamp
#guard isErr (AllowedSigner.fromString T "mitchell@confurious.io valid-before=\"1941\" \"ssh-ed25519\" AAAAC3NzaC1lZDI1NTE5AAAAIDO0VQD9TIdICZLWFWwtf7s8/aENve8twGTEmNV0myh5".toList)

-- tests/allowed-signer.rs: parse_bad_allowed_signer_with_invalid_timestamp
#guard isErr (AllowedSigner.fromString T "mitchell@confurious.io valid-before=19411293 \"ssh-ed25519\" AAAAC3NzaC1lZDI1NTE5AAAAIDO0VQD9TIdICZLWFWwtf7s8/aENve8twGTEmNV0myh5".toList)

-- tests/allowed-signer.rs: parse_bad_allowed_signer_with_invalid_timestamp
#guard isErr (AllowedSigner.fromString T "mitchell@confurious.io valid-before=1941293 \"ssh-ed25519\" AAAAC3NzaC1lZDI1NTE5AAAAIDO0VQD9TIdICZLWFWwtf7s8/aENve8twGTEmNV0myh5".toList)

-- tests/allowed-signer.rs: parse_bad_allowed_signer_with_invalid_timestamp
#guard isErr (AllowedSigner.fromString T "mitchell@confurious.io valid-before=19411293Z \"ssh-ed25519\" AAAAC3NzaC1lZDI1NTE5AAAAIDO0VQD9TIdICZLWFWwtf7s8/aENve8twGTEmNV0myh5".toList)

def noSigner : AllowedSigner := ⟨[], false, none, none, none, ⟨⟨"", "", "", false, false, .rsa⟩, .rsa [] [], none⟩⟩

-- tests/allowed-signers.rs: parse_good_allowed_signers
#guard holds (allowedSignersFromPath T (fun p => if p = "tests/allowed_signers/good_allowed_signers" then some (strBytes "# Comments are ignored\nmitchell@confurious.io ssh-ed25519 AAAAC3NzaC1lZDI1NTE5AAAAIDO0VQD9TIdICZLWFWwtf7s8/aENve8twGTEmNV0myh5\n# Empty lines are also ignored\n\nmitchell@confurious.io,mitchel2@confurious.io cert-authority namespaces=\"thanh,#mitchell\" valid-before=\"20240505Z\" ssh-ed25519 AAAAC3NzaC1lZDI1NTE5AAAAIDO0VQD9TIdICZLWFWwtf7s8/aENve8twGTEmNV0myh5  # End of line comment is ignored\nmitchell@confurious.io,mitchel2@confurious.io cert-authority namespaces=\"thanh, ,mitchell mitchell, andrew   andrew\" valid-before=\"20240505Z\" ssh-ed25519 AAAAC3NzaC1lZDI1NTE5AAAAIDO0VQD9TIdICZLWFWwtf7s8/aENve8twGTEmNV0myh5\n") else none) "tests/allowed_signers/good_allowed_signers") fun l => l.length == 3 && (shows (l.getD 0 noSigner).key "SHA256:QAtqtvvCePelMMUNPP7madH2zNa1ATxX1nt9L/0C5+M" && (l.getD 0 noSigner).principals == ["mitchell@confurious.io".toList] && !(l.getD 0 noSigner).certAuthority && (l.getD 0 noSigner).namespaces == none && (l.getD 0 noSigner).validAfter == none && (l.getD 0 noSigner).validBefore == none) && ((l.getD 1 noSigner).principals == ["mitchell@confurious.io".toList, "mitchel2@confurious.io".toList] && (l.getD 1 noSigner).namespaces == some ["thanh".toList, "#mitchell".toList] && (l.getD 1 noSigner).validBefore == some 1714867200 && (l.getD 1 noSigner).certAuthority && (l.getD 1 noSigner).validAfter == none) && ((l.getD 2 noSigner).namespaces == some ["thanh".toList, " ".toList, "mitchell mitchell".toList, " andrew   andrew".toList] && (l.getD 2 noSigner).validBefore == some 1714867200 && (l.getD 2 noSigner).validAfter == none)

end Ssh.Tests
