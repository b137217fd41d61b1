import Verif.Model.Basic

/-! # The attestations of the project's tests, and the roots they lead to -/

namespace Ssh.Concrete

/-- src/fido/verification.rs `YUBICO_U2F_ROOT_CA`. -/
def u2fRoot : String := "-----BEGIN CERTIFICATE-----\nMIIDHjCCAgagAwIBAgIEG0BT9zANBgkqhkiG9w0BAQsFADAuMSwwKgYDVQQDEyNZ\ndWJpY28gVTJGIFJvb3QgQ0EgU2VyaWFsIDQ1NzIwMDYzMTAgFw0xNDA4MDEwMDAw\nMDBaGA8yMDUwMDkwNDAwMDAwMFowLjEsMCoGA1UEAxMjWXViaWNvIFUyRiBSb290\nIENBIFNlcmlhbCA0NTcyMDA2MzEwggEiMA0GCSqGSIb3DQEBAQUAA4IBDwAwggEK\nAoIBAQC/jwYuhBVlqaiYWEMsrWFisgJ+PtM91eSrpI4TK7U53mwCIawSDHy8vUmk\n5N2KAj9abvT9NP5SMS1hQi3usxoYGonXQgfO6ZXyUA9a+KAkqdFnBnlyugSeCOep\n8EdZFfsaRFtMjkwz5Gcz2Py4vIYvCdMHPtwaz0bVuzneueIEz6TnQjE63Rdt2zbw\nnebwTG5ZybeWSwbzy+BJ34ZHcUhPAY89yJQXuE0IzMZFcEBbPNRbWECRKgjq//qT\n9nmDOFVlSRCt2wiqPSzluwn+v+suQEBsUjTGMEd25tKXXTkNW21wIWbxeSyUoTXw\nLvGS6xlwQSgNpk2qXYwf8iXg7VWZAgMBAAGjQjBAMB0GA1UdDgQWBBQgIvz0bNGJ\nhjgpToksyKpP9xv9oDAPBgNVHRMECDAGAQH/AgEAMA4GA1UdDwEB/wQEAwIBBjAN\nBgkqhkiG9w0BAQsFAAOCAQEAjvjuOMDSa+JXFCLyBKsycXtBVZsJ4Ue3LbaEsPY4\nMYN/hIQ5ZM5p7EjfcnMG4CtYkNsfNHc0AhBLdq45rnT87q/6O3vUEtNMafbhU6kt\nhX7Y+9XFN9NpmYxr+ekVY5xOxi8h9JDIgoMP4VB1uS0aunL1IGqrNooL9mmFnL2k\nLVVee6/VR6C5+KSTCMCWppMuJIZII2v9o4dkoZ8Y7QRjQlLfYzd3qGtKbw7xaF1U\nsG/5xUb/Btwb2X2g4InpiB/yt/3CpQXpiWX/K4mBvUKiGn05ZsqeY1gx4g0xLBqc\nU9psmyPzK+Vsgw2jeRQ5JlKDyqE0hebfC1tvFu0CCrJFcw==\n-----END CERTIFICATE-----"

set_option maxRecDepth 100000 in
/-- Its characters. -/
def u2fRootChars : List Char := [
  '-', '-', '-', '-', '-', 'B', 'E', 'G', 'I', 'N', ' ', 'C', 'E', 'R', 'T', 'I', 'F', 'I', 'C', 'A', 'T', 'E', '-', '-', '-', '-',
  '-', '\n', 'M', 'I', 'I', 'D', 'H', 'j', 'C', 'C', 'A', 'g', 'a', 'g', 'A', 'w', 'I', 'B', 'A', 'g', 'I', 'E', 'G', '0', 'B', 'T',
  '9', 'z', 'A', 'N', 'B', 'g', 'k', 'q', 'h', 'k', 'i', 'G', '9', 'w', '0', 'B', 'A', 'Q', 's', 'F', 'A', 'D', 'A', 'u', 'M', 'S',
  'w', 'w', 'K', 'g', 'Y', 'D', 'V', 'Q', 'Q', 'D', 'E', 'y', 'N', 'Z', '\n', 'd', 'W', 'J', 'p', 'Y', '2', '8', 'g', 'V', 'T', 'J',
  'G', 'I', 'F', 'J', 'v', 'b', '3', 'Q', 'g', 'Q', '0', 'E', 'g', 'U', '2', 'V', 'y', 'a', 'W', 'F', 's', 'I', 'D', 'Q', '1', 'N',
  'z', 'I', 'w', 'M', 'D', 'Y', 'z', 'M', 'T', 'A', 'g', 'F', 'w', '0', 'x', 'N', 'D', 'A', '4', 'M', 'D', 'E', 'w', 'M', 'D', 'A',
  'w', '\n', 'M', 'D', 'B', 'a', 'G', 'A', '8', 'y', 'M', 'D', 'U', 'w', 'M', 'D', 'k', 'w', 'N', 'D', 'A', 'w', 'M', 'D', 'A', 'w',
  'M', 'F', 'o', 'w', 'L', 'j', 'E', 's', 'M', 'C', 'o', 'G', 'A', '1', 'U', 'E', 'A', 'x', 'M', 'j', 'W', 'X', 'V', 'i', 'a', 'W',
  'N', 'v', 'I', 'F', 'U', 'y', 'R', 'i', 'B', 'S', 'b', '2', '9', '0', '\n', 'I', 'E', 'N', 'B', 'I', 'F', 'N', 'l', 'c', 'm', 'l',
  'h', 'b', 'C', 'A', '0', 'N', 'T', 'c', 'y', 'M', 'D', 'A', '2', 'M', 'z', 'E', 'w', 'g', 'g', 'E', 'i', 'M', 'A', '0', 'G', 'C',
  'S', 'q', 'G', 'S', 'I', 'b', '3', 'D', 'Q', 'E', 'B', 'A', 'Q', 'U', 'A', 'A', '4', 'I', 'B', 'D', 'w', 'A', 'w', 'g', 'g', 'E',
  'K', '\n', 'A', 'o', 'I', 'B', 'A', 'Q', 'C', '/', 'j', 'w', 'Y', 'u', 'h', 'B', 'V', 'l', 'q', 'a', 'i', 'Y', 'W', 'E', 'M', 's',
  'r', 'W', 'F', 'i', 's', 'g', 'J', '+', 'P', 't', 'M', '9', '1', 'e', 'S', 'r', 'p', 'I', '4', 'T', 'K', '7', 'U', '5', '3', 'm',
  'w', 'C', 'I', 'a', 'w', 'S', 'D', 'H', 'y', '8', 'v', 'U', 'm', 'k', '\n', '5', 'N', '2', 'K', 'A', 'j', '9', 'a', 'b', 'v', 'T',
  '9', 'N', 'P', '5', 'S', 'M', 'S', '1', 'h', 'Q', 'i', '3', 'u', 's', 'x', 'o', 'Y', 'G', 'o', 'n', 'X', 'Q', 'g', 'f', 'O', '6',
  'Z', 'X', 'y', 'U', 'A', '9', 'a', '+', 'K', 'A', 'k', 'q', 'd', 'F', 'n', 'B', 'n', 'l', 'y', 'u', 'g', 'S', 'e', 'C', 'O', 'e',
  'p', '\n', '8', 'E', 'd', 'Z', 'F', 'f', 's', 'a', 'R', 'F', 't', 'M', 'j', 'k', 'w', 'z', '5', 'G', 'c', 'z', '2', 'P', 'y', '4',
  'v', 'I', 'Y', 'v', 'C', 'd', 'M', 'H', 'P', 't', 'w', 'a', 'z', '0', 'b', 'V', 'u', 'z', 'n', 'e', 'u', 'e', 'I', 'E', 'z', '6',
  'T', 'n', 'Q', 'j', 'E', '6', '3', 'R', 'd', 't', '2', 'z', 'b', 'w', '\n', 'n', 'e', 'b', 'w', 'T', 'G', '5', 'Z', 'y', 'b', 'e',
  'W', 'S', 'w', 'b', 'z', 'y', '+', 'B', 'J', '3', '4', 'Z', 'H', 'c', 'U', 'h', 'P', 'A', 'Y', '8', '9', 'y', 'J', 'Q', 'X', 'u',
  'E', '0', 'I', 'z', 'M', 'Z', 'F', 'c', 'E', 'B', 'b', 'P', 'N', 'R', 'b', 'W', 'E', 'C', 'R', 'K', 'g', 'j', 'q', '/', '/', 'q',
  'T', '\n', '9', 'n', 'm', 'D', 'O', 'F', 'V', 'l', 'S', 'R', 'C', 't', '2', 'w', 'i', 'q', 'P', 'S', 'z', 'l', 'u', 'w', 'n', '+',
  'v', '+', 's', 'u', 'Q', 'E', 'B', 's', 'U', 'j', 'T', 'G', 'M', 'E', 'd', '2', '5', 't', 'K', 'X', 'X', 'T', 'k', 'N', 'W', '2',
  '1', 'w', 'I', 'W', 'b', 'x', 'e', 'S', 'y', 'U', 'o', 'T', 'X', 'w', '\n', 'L', 'v', 'G', 'S', '6', 'x', 'l', 'w', 'Q', 'S', 'g',
  'N', 'p', 'k', '2', 'q', 'X', 'Y', 'w', 'f', '8', 'i', 'X', 'g', '7', 'V', 'W', 'Z', 'A', 'g', 'M', 'B', 'A', 'A', 'G', 'j', 'Q',
  'j', 'B', 'A', 'M', 'B', '0', 'G', 'A', '1', 'U', 'd', 'D', 'g', 'Q', 'W', 'B', 'B', 'Q', 'g', 'I', 'v', 'z', '0', 'b', 'N', 'G',
  'J', '\n', 'h', 'j', 'g', 'p', 'T', 'o', 'k', 's', 'y', 'K', 'p', 'P', '9', 'x', 'v', '9', 'o', 'D', 'A', 'P', 'B', 'g', 'N', 'V',
  'H', 'R', 'M', 'E', 'C', 'D', 'A', 'G', 'A', 'Q', 'H', '/', 'A', 'g', 'E', 'A', 'M', 'A', '4', 'G', 'A', '1', 'U', 'd', 'D', 'w',
  'E', 'B', '/', 'w', 'Q', 'E', 'A', 'w', 'I', 'B', 'B', 'j', 'A', 'N', '\n', 'B', 'g', 'k', 'q', 'h', 'k', 'i', 'G', '9', 'w', '0',
  'B', 'A', 'Q', 's', 'F', 'A', 'A', 'O', 'C', 'A', 'Q', 'E', 'A', 'j', 'v', 'j', 'u', 'O', 'M', 'D', 'S', 'a', '+', 'J', 'X', 'F',
  'C', 'L', 'y', 'B', 'K', 's', 'y', 'c', 'X', 't', 'B', 'V', 'Z', 's', 'J', '4', 'U', 'e', '3', 'L', 'b', 'a', 'E', 's', 'P', 'Y',
  '4', '\n', 'M', 'Y', 'N', '/', 'h', 'I', 'Q', '5', 'Z', 'M', '5', 'p', '7', 'E', 'j', 'f', 'c', 'n', 'M', 'G', '4', 'C', 't', 'Y',
  'k', 'N', 's', 'f', 'N', 'H', 'c', '0', 'A', 'h', 'B', 'L', 'd', 'q', '4', '5', 'r', 'n', 'T', '8', '7', 'q', '/', '6', 'O', '3',
  'v', 'U', 'E', 't', 'N', 'M', 'a', 'f', 'b', 'h', 'U', '6', 'k', 't', '\n', 'h', 'X', '7', 'Y', '+', '9', 'X', 'F', 'N', '9', 'N',
  'p', 'm', 'Y', 'x', 'r', '+', 'e', 'k', 'V', 'Y', '5', 'x', 'O', 'x', 'i', '8', 'h', '9', 'J', 'D', 'I', 'g', 'o', 'M', 'P', '4',
  'V', 'B', '1', 'u', 'S', '0', 'a', 'u', 'n', 'L', '1', 'I', 'G', 'q', 'r', 'N', 'o', 'o', 'L', '9', 'm', 'm', 'F', 'n', 'L', '2',
  'k', '\n', 'L', 'V', 'V', 'e', 'e', '6', '/', 'V', 'R', '6', 'C', '5', '+', 'K', 'S', 'T', 'C', 'M', 'C', 'W', 'p', 'p', 'M', 'u',
  'J', 'I', 'Z', 'I', 'I', '2', 'v', '9', 'o', '4', 'd', 'k', 'o', 'Z', '8', 'Y', '7', 'Q', 'R', 'j', 'Q', 'l', 'L', 'f', 'Y', 'z',
  'd', '3', 'q', 'G', 't', 'K', 'b', 'w', '7', 'x', 'a', 'F', '1', 'U', '\n', 's', 'G', '/', '5', 'x', 'U', 'b', '/', 'B', 't', 'w',
  'b', '2', 'X', '2', 'g', '4', 'I', 'n', 'p', 'i', 'B', '/', 'y', 't', '/', '3', 'C', 'p', 'Q', 'X', 'p', 'i', 'W', 'X', '/', 'K',
  '4', 'm', 'B', 'v', 'U', 'K', 'i', 'G', 'n', '0', '5', 'Z', 's', 'q', 'e', 'Y', '1', 'g', 'x', '4', 'g', '0', 'x', 'L', 'B', 'q',
  'c', '\n', 'U', '9', 'p', 's', 'm', 'y', 'P', 'z', 'K', '+', 'V', 's', 'g', 'w', '2', 'j', 'e', 'R', 'Q', '5', 'J', 'l', 'K', 'D',
  'y', 'q', 'E', '0', 'h', 'e', 'b', 'f', 'C', '1', 't', 'v', 'F', 'u', '0', 'C', 'C', 'r', 'J', 'F', 'c', 'w', '=', '=', '\n', '-',
  '-', '-', '-', '-', 'E', 'N', 'D', ' ', 'C', 'E', 'R', 'T', 'I', 'F', 'I', 'C', 'A', 'T', 'E', '-', '-', '-', '-', '-']

set_option maxRecDepth 100000 in
theorem u2fRoot_eq : u2fRoot = String.ofList u2fRootChars := rfl

/-- src/yubikey/verification.rs `YUBICO_PIV_ROOT_CA`. -/
def pivRoot : String := "-----BEGIN CERTIFICATE-----\nMIIDFzCCAf+gAwIBAgIDBAZHMA0GCSqGSIb3DQEBCwUAMCsxKTAnBgNVBAMMIFl1\nYmljbyBQSVYgUm9vdCBDQSBTZXJpYWwgMjYzNzUxMCAXDTE2MDMxNDAwMDAwMFoY\nDzIwNTIwNDE3MDAwMDAwWjArMSkwJwYDVQQDDCBZdWJpY28gUElWIFJvb3QgQ0Eg\nU2VyaWFsIDI2Mzc1MTCCASIwDQYJKoZIhvcNAQEBBQADggEPADCCAQoCggEBAMN2\ncMTNR6YCdcTFRxuPy31PabRn5m6pJ+nSE0HRWpoaM8fc8wHC+Tmb98jmNvhWNE2E\nilU85uYKfEFP9d6Q2GmytqBnxZsAa3KqZiCCx2LwQ4iYEOb1llgotVr/whEpdVOq\njoU0P5e1j1y7OfwOvky/+AXIN/9Xp0VFlYRk2tQ9GcdYKDmqU+db9iKwpAzid4oH\nBVLIhmD3pvkWaRA2H3DA9t7H/HNq5v3OiO1jyLZeKqZoMbPObrxqDg+9fOdShzgf\nwCqgT3XVmTeiwvBSTctyi9mHQfYd2DwkaqxRnLbNVyK9zl+DzjSGp9IhVPiVtGet\nX02dxhQnGS7K6BO0Qe8CAwEAAaNCMEAwHQYDVR0OBBYEFMpfyvLEojGc6SJf8ez0\n1d8Cv4O/MA8GA1UdEwQIMAYBAf8CAQEwDgYDVR0PAQH/BAQDAgEGMA0GCSqGSIb3\nDQEBCwUAA4IBAQBc7Ih8Bc1fkC+FyN1fhjWioBCMr3vjneh7MLbA6kSoyWF70N3s\nXhbXvT4eRh0hvxqvMZNjPU/VlRn6gLVtoEikDLrYFXN6Hh6Wmyy1GTnspnOvMvz2\nlLKuym9KYdYLDgnj3BeAvzIhVzzYSeU77/Cupofj093OuAswW0jYvXsGTyix6B3d\nbW5yWvyS9zNXaqGaUmP3U9/b6DlHdDogMLu3VLpBB9bm5bjaKWWJYgWltCVgUbFq\nFqyi4+JE014cSgR57Jcu3dZiehB6UtAPgad9L5cNvua/IWRmm+ANy3O2LH++Pyl8\nSREzU8onbBsjMg9QDiSf5oJLKvd/Ren+zGY7\n-----END CERTIFICATE-----"

set_option maxRecDepth 100000 in
/-- Its characters. -/
def pivRootChars : List Char := [
  '-', '-', '-', '-', '-', 'B', 'E', 'G', 'I', 'N', ' ', 'C', 'E', 'R', 'T', 'I', 'F', 'I', 'C', 'A', 'T', 'E', '-', '-', '-', '-',
  '-', '\n', 'M', 'I', 'I', 'D', 'F', 'z', 'C', 'C', 'A', 'f', '+', 'g', 'A', 'w', 'I', 'B', 'A', 'g', 'I', 'D', 'B', 'A', 'Z', 'H',
  'M', 'A', '0', 'G', 'C', 'S', 'q', 'G', 'S', 'I', 'b', '3', 'D', 'Q', 'E', 'B', 'C', 'w', 'U', 'A', 'M', 'C', 's', 'x', 'K', 'T',
  'A', 'n', 'B', 'g', 'N', 'V', 'B', 'A', 'M', 'M', 'I', 'F', 'l', '1', '\n', 'Y', 'm', 'l', 'j', 'b', 'y', 'B', 'Q', 'S', 'V', 'Y',
  'g', 'U', 'm', '9', 'v', 'd', 'C', 'B', 'D', 'Q', 'S', 'B', 'T', 'Z', 'X', 'J', 'p', 'Y', 'W', 'w', 'g', 'M', 'j', 'Y', 'z', 'N',
  'z', 'U', 'x', 'M', 'C', 'A', 'X', 'D', 'T', 'E', '2', 'M', 'D', 'M', 'x', 'N', 'D', 'A', 'w', 'M', 'D', 'A', 'w', 'M', 'F', 'o',
  'Y', '\n', 'D', 'z', 'I', 'w', 'N', 'T', 'I', 'w', 'N', 'D', 'E', '3', 'M', 'D', 'A', 'w', 'M', 'D', 'A', 'w', 'W', 'j', 'A', 'r',
  'M', 'S', 'k', 'w', 'J', 'w', 'Y', 'D', 'V', 'Q', 'Q', 'D', 'D', 'C', 'B', 'Z', 'd', 'W', 'J', 'p', 'Y', '2', '8', 'g', 'U', 'E',
  'l', 'W', 'I', 'F', 'J', 'v', 'b', '3', 'Q', 'g', 'Q', '0', 'E', 'g', '\n', 'U', '2', 'V', 'y', 'a', 'W', 'F', 's', 'I', 'D', 'I',
  '2', 'M', 'z', 'c', '1', 'M', 'T', 'C', 'C', 'A', 'S', 'I', 'w', 'D', 'Q', 'Y', 'J', 'K', 'o', 'Z', 'I', 'h', 'v', 'c', 'N', 'A',
  'Q', 'E', 'B', 'B', 'Q', 'A', 'D', 'g', 'g', 'E', 'P', 'A', 'D', 'C', 'C', 'A', 'Q', 'o', 'C', 'g', 'g', 'E', 'B', 'A', 'M', 'N',
  '2', '\n', 'c', 'M', 'T', 'N', 'R', '6', 'Y', 'C', 'd', 'c', 'T', 'F', 'R', 'x', 'u', 'P', 'y', '3', '1', 'P', 'a', 'b', 'R', 'n',
  '5', 'm', '6', 'p', 'J', '+', 'n', 'S', 'E', '0', 'H', 'R', 'W', 'p', 'o', 'a', 'M', '8', 'f', 'c', '8', 'w', 'H', 'C', '+', 'T',
  'm', 'b', '9', '8', 'j', 'm', 'N', 'v', 'h', 'W', 'N', 'E', '2', 'E', '\n', 'i', 'l', 'U', '8', '5', 'u', 'Y', 'K', 'f', 'E', 'F',
  'P', '9', 'd', '6', 'Q', '2', 'G', 'm', 'y', 't', 'q', 'B', 'n', 'x', 'Z', 's', 'A', 'a', '3', 'K', 'q', 'Z', 'i', 'C', 'C', 'x',
  '2', 'L', 'w', 'Q', '4', 'i', 'Y', 'E', 'O', 'b', '1', 'l', 'l', 'g', 'o', 't', 'V', 'r', '/', 'w', 'h', 'E', 'p', 'd', 'V', 'O',
  'q', '\n', 'j', 'o', 'U', '0', 'P', '5', 'e', '1', 'j', '1', 'y', '7', 'O', 'f', 'w', 'O', 'v', 'k', 'y', '/', '+', 'A', 'X', 'I',
  'N', '/', '9', 'X', 'p', '0', 'V', 'F', 'l', 'Y', 'R', 'k', '2', 't', 'Q', '9', 'G', 'c', 'd', 'Y', 'K', 'D', 'm', 'q', 'U', '+',
  'd', 'b', '9', 'i', 'K', 'w', 'p', 'A', 'z', 'i', 'd', '4', 'o', 'H', '\n', 'B', 'V', 'L', 'I', 'h', 'm', 'D', '3', 'p', 'v', 'k',
  'W', 'a', 'R', 'A', '2', 'H', '3', 'D', 'A', '9', 't', '7', 'H', '/', 'H', 'N', 'q', '5', 'v', '3', 'O', 'i', 'O', '1', 'j', 'y',
  'L', 'Z', 'e', 'K', 'q', 'Z', 'o', 'M', 'b', 'P', 'O', 'b', 'r', 'x', 'q', 'D', 'g', '+', '9', 'f', 'O', 'd', 'S', 'h', 'z', 'g',
  'f', '\n', 'w', 'C', 'q', 'g', 'T', '3', 'X', 'V', 'm', 'T', 'e', 'i', 'w', 'v', 'B', 'S', 'T', 'c', 't', 'y', 'i', '9', 'm', 'H',
  'Q', 'f', 'Y', 'd', '2', 'D', 'w', 'k', 'a', 'q', 'x', 'R', 'n', 'L', 'b', 'N', 'V', 'y', 'K', '9', 'z', 'l', '+', 'D', 'z', 'j',
  'S', 'G', 'p', '9', 'I', 'h', 'V', 'P', 'i', 'V', 't', 'G', 'e', 't', '\n', 'X', '0', '2', 'd', 'x', 'h', 'Q', 'n', 'G', 'S', '7',
  'K', '6', 'B', 'O', '0', 'Q', 'e', '8', 'C', 'A', 'w', 'E', 'A', 'A', 'a', 'N', 'C', 'M', 'E', 'A', 'w', 'H', 'Q', 'Y', 'D', 'V',
  'R', '0', 'O', 'B', 'B', 'Y', 'E', 'F', 'M', 'p', 'f', 'y', 'v', 'L', 'E', 'o', 'j', 'G', 'c', '6', 'S', 'J', 'f', '8', 'e', 'z',
  '0', '\n', '1', 'd', '8', 'C', 'v', '4', 'O', '/', 'M', 'A', '8', 'G', 'A', '1', 'U', 'd', 'E', 'w', 'Q', 'I', 'M', 'A', 'Y', 'B',
  'A', 'f', '8', 'C', 'A', 'Q', 'E', 'w', 'D', 'g', 'Y', 'D', 'V', 'R', '0', 'P', 'A', 'Q', 'H', '/', 'B', 'A', 'Q', 'D', 'A', 'g',
  'E', 'G', 'M', 'A', '0', 'G', 'C', 'S', 'q', 'G', 'S', 'I', 'b', '3', '\n', 'D', 'Q', 'E', 'B', 'C', 'w', 'U', 'A', 'A', '4', 'I',
  'B', 'A', 'Q', 'B', 'c', '7', 'I', 'h', '8', 'B', 'c', '1', 'f', 'k', 'C', '+', 'F', 'y', 'N', '1', 'f', 'h', 'j', 'W', 'i', 'o',
  'B', 'C', 'M', 'r', '3', 'v', 'j', 'n', 'e', 'h', '7', 'M', 'L', 'b', 'A', '6', 'k', 'S', 'o', 'y', 'W', 'F', '7', '0', 'N', '3',
  's', '\n', 'X', 'h', 'b', 'X', 'v', 'T', '4', 'e', 'R', 'h', '0', 'h', 'v', 'x', 'q', 'v', 'M', 'Z', 'N', 'j', 'P', 'U', '/', 'V',
  'l', 'R', 'n', '6', 'g', 'L', 'V', 't', 'o', 'E', 'i', 'k', 'D', 'L', 'r', 'Y', 'F', 'X', 'N', '6', 'H', 'h', '6', 'W', 'm', 'y',
  'y', '1', 'G', 'T', 'n', 's', 'p', 'n', 'O', 'v', 'M', 'v', 'z', '2', '\n', 'l', 'L', 'K', 'u', 'y', 'm', '9', 'K', 'Y', 'd', 'Y',
  'L', 'D', 'g', 'n', 'j', '3', 'B', 'e', 'A', 'v', 'z', 'I', 'h', 'V', 'z', 'z', 'Y', 'S', 'e', 'U', '7', '7', '/', 'C', 'u', 'p',
  'o', 'f', 'j', '0', '9', '3', 'O', 'u', 'A', 's', 'w', 'W', '0', 'j', 'Y', 'v', 'X', 's', 'G', 'T', 'y', 'i', 'x', '6', 'B', '3',
  'd', '\n', 'b', 'W', '5', 'y', 'W', 'v', 'y', 'S', '9', 'z', 'N', 'X', 'a', 'q', 'G', 'a', 'U', 'm', 'P', '3', 'U', '9', '/', 'b',
  '6', 'D', 'l', 'H', 'd', 'D', 'o', 'g', 'M', 'L', 'u', '3', 'V', 'L', 'p', 'B', 'B', '9', 'b', 'm', '5', 'b', 'j', 'a', 'K', 'W',
  'W', 'J', 'Y', 'g', 'W', 'l', 't', 'C', 'V', 'g', 'U', 'b', 'F', 'q', '\n', 'F', 'q', 'y', 'i', '4', '+', 'J', 'E', '0', '1', '4',
  'c', 'S', 'g', 'R', '5', '7', 'J', 'c', 'u', '3', 'd', 'Z', 'i', 'e', 'h', 'B', '6', 'U', 't', 'A', 'P', 'g', 'a', 'd', '9', 'L',
  '5', 'c', 'N', 'v', 'u', 'a', '/', 'I', 'W', 'R', 'm', 'm', '+', 'A', 'N', 'y', '3', 'O', '2', 'L', 'H', '+', '+', 'P', 'y', 'l',
  '8', '\n', 'S', 'R', 'E', 'z', 'U', '8', 'o', 'n', 'b', 'B', 's', 'j', 'M', 'g', '9', 'Q', 'D', 'i', 'S', 'f', '5', 'o', 'J', 'L',
  'K', 'v', 'd', '/', 'R', 'e', 'n', '+', 'z', 'G', 'Y', '7', '\n', '-', '-', '-', '-', '-', 'E', 'N', 'D', ' ', 'C', 'E', 'R', 'T',
  'I', 'F', 'I', 'C', 'A', 'T', 'E', '-', '-', '-', '-', '-']

set_option maxRecDepth 100000 in
theorem pivRoot_eq : pivRoot = String.ofList pivRootChars := rfl

/-- tests/fido-lite.rs: verify_and_parse_auth_data_yubikey_bio. -/
def bioAuthData : Bytes := [159, 134, 208, 129, 136, 76, 125, 101, 154, 47, 234, 160, 197, 90, 208, 21, 163, 191, 79, 27, 43, 11, 130, 44, 209, 93, 108, 21, 176, 240, 10, 8, 69, 0, 0, 0, 4, 216, 82, 45, 159, 87, 91, 72, 102, 136, 169, 186, 153, 250, 2, 243, 91, 0, 128, 187, 175, 246, 203, 246, 168, 180, 21, 189, 218, 30, 138, 67, 114, 210, 112, 219, 54, 100, 217, 198, 11, 242, 135, 179, 16, 97, 54, 122, 37, 5, 179, 239, 60, 253, 239, 165, 185, 110, 16, 15, 64, 106, 235, 66, 169, 194, 144, 26, 13, 62, 19, 92, 236, 67, 12, 244, 95, 85, 76, 6, 158, 250, 224, 36, 16, 118, 123, 117, 5, 208, 170, 12, 184, 153, 127, 131, 34, 88, 87, 187, 96, 88, 63, 11, 177, 132, 141, 108, 188, 43, 98, 74, 119, 56, 152, 47, 185, 150, 91, 75, 24, 211, 200, 186, 202, 212, 72, 1, 163, 77, 32, 123, 143, 64, 167, 77, 104, 248, 66, 74, 8, 173, 85, 227, 182, 110, 105, 164, 1, 1, 3, 39, 32, 6, 33, 88, 32, 169, 114, 64, 116, 199, 57, 16, 33, 164, 172, 100, 85, 52, 105, 107, 184, 133, 57, 167, 125, 245, 119, 15, 217, 69, 223, 26, 160, 108, 250, 208, 254]

/-- tests/fido-lite.rs: verify_and_parse_auth_data_yubikey_bio. -/
def bioSig : Bytes := [48, 70, 2, 33, 0, 155, 249, 91, 55, 178, 134, 80, 255, 47, 189, 218, 141, 171, 224, 158, 174, 86, 225, 13, 4, 201, 203, 71, 155, 72, 111, 63, 98, 233, 50, 147, 105, 2, 33, 0, 150, 52, 141, 217, 224, 105, 182, 118, 22, 74, 251, 149, 149, 106, 31, 101, 53, 78, 169, 33, 28, 94, 86, 215, 159, 84, 62, 181, 133, 161, 72, 9]

/-- tests/fido-lite.rs: verify_and_parse_auth_data_yubikey_bio. -/
def bioClient : Bytes := [159, 69, 175, 144, 191, 241, 46, 53, 60, 61, 10, 226, 116, 217, 243, 221, 68, 124, 248, 177, 150, 25, 249, 110, 113, 19, 36, 95, 60, 172, 83, 35]

/-- tests/fido-lite.rs: verify_and_parse_auth_data_yubikey_bio. -/
def bioCert : Bytes := [48, 130, 2, 216, 48, 130, 1, 192, 160, 3, 2, 1, 2, 2, 9, 0, 255, 135, 108, 45, 175, 115, 121, 200, 48, 13, 6, 9, 42, 134, 72, 134, 247, 13, 1, 1, 11, 5, 0, 48, 46, 49, 44, 48, 42, 6, 3, 85, 4, 3, 19, 35, 89, 117, 98, 105, 99, 111, 32, 85, 50, 70, 32, 82, 111, 111, 116, 32, 67, 65, 32, 83, 101, 114, 105, 97, 108, 32, 52, 53, 55, 50, 48, 48, 54, 51, 49, 48, 32, 23, 13, 49, 52, 48, 56, 48, 49, 48, 48, 48, 48, 48, 48, 90, 24, 15, 50, 48, 53, 48, 48, 57, 48, 52, 48, 48, 48, 48, 48, 48, 90, 48, 110, 49, 11, 48, 9, 6, 3, 85, 4, 6, 19, 2, 83, 69, 49, 18, 48, 16, 6, 3, 85, 4, 10, 12, 9, 89, 117, 98, 105, 99, 111, 32, 65, 66, 49, 34, 48, 32, 6, 3, 85, 4, 11, 12, 25, 65, 117, 116, 104, 101, 110, 116, 105, 99, 97, 116, 111, 114, 32, 65, 116, 116, 101, 115, 116, 97, 116, 105, 111, 110, 49, 39, 48, 37, 6, 3, 85, 4, 3, 12, 30, 89, 117, 98, 105, 99, 111, 32, 85, 50, 70, 32, 69, 69, 32, 83, 101, 114, 105, 97, 108, 32, 55, 54, 50, 48, 56, 55, 52, 50, 51, 48, 89, 48, 19, 6, 7, 42, 134, 72, 206, 61, 2, 1, 6, 8, 42, 134, 72, 206, 61, 3, 1, 7, 3, 66, 0, 4, 37, 241, 35, 160, 72, 40, 63, 197, 121, 108, 207, 136, 125, 153, 72, 159, 217, 53, 194, 65, 152, 196, 181, 216, 213, 178, 194, 191, 215, 221, 93, 21, 175, 228, 91, 112, 112, 119, 101, 103, 213, 181, 176, 178, 62, 4, 86, 11, 91, 234, 119, 180, 131, 177, 246, 73, 30, 83, 163, 242, 190, 230, 163, 154, 163, 129, 129, 48, 127, 48, 19, 6, 10, 43, 6, 1, 4, 1, 130, 196, 10, 13, 1, 4, 5, 4, 3, 5, 5, 6, 48, 34, 6, 9, 43, 6, 1, 4, 1, 130, 196, 10, 2, 4, 21, 49, 46, 51, 46, 54, 46, 49, 46, 52, 46, 49, 46, 52, 49, 52, 56, 50, 46, 49, 46, 57, 48, 19, 6, 11, 43, 6, 1, 4, 1, 130, 229, 28, 2, 1, 1, 4, 4, 3, 2, 5, 32, 48, 33, 6, 11, 43, 6, 1, 4, 1, 130, 229, 28, 1, 1, 4, 4, 18, 4, 16, 216, 82, 45, 159, 87, 91, 72, 102, 136, 169, 186, 153, 250, 2, 243, 91, 48, 12, 6, 3, 85, 29, 19, 1, 1, 255, 4, 2, 48, 0, 48, 13, 6, 9, 42, 134, 72, 134, 247, 13, 1, 1, 11, 5, 0, 3, 130, 1, 1, 0, 82, 176, 105, 73, 219, 170, 209, 166, 76, 27, 169, 235, 193, 152, 179, 23, 236, 49, 249, 163, 115, 99, 186, 81, 97, 179, 66, 227, 164, 156, 173, 80, 79, 52, 231, 66, 139, 184, 150, 233, 207, 210, 141, 3, 173, 16, 206, 50, 90, 6, 131, 142, 155, 108, 78, 203, 23, 173, 64, 208, 144, 161, 108, 158, 124, 52, 73, 131, 50, 255, 133, 59, 98, 116, 126, 143, 205, 240, 13, 174, 98, 117, 110, 87, 189, 64, 177, 109, 103, 121, 7, 168, 53, 192, 67, 90, 46, 188, 233, 176, 185, 6, 156, 161, 34, 191, 157, 150, 74, 115, 32, 106, 247, 79, 243, 192, 1, 68, 235, 255, 61, 231, 199, 117, 141, 49, 71, 200, 194, 249, 254, 135, 193, 47, 42, 150, 117, 162, 4, 107, 1, 7, 99, 97, 169, 151, 33, 135, 31, 167, 143, 176, 222, 41, 69, 181, 121, 249, 22, 108, 72, 173, 47, 213, 12, 60, 229, 108, 130, 33, 167, 80, 131, 246, 86, 17, 147, 148, 54, 143, 241, 125, 44, 146, 12, 99, 160, 159, 1, 237, 37, 1, 20, 107, 125, 241, 171, 57, 112, 162, 163, 41, 56, 250, 154, 81, 122, 244, 113, 8, 94, 22, 11, 60, 167, 151, 100, 35, 23, 70, 186, 106, 187, 166, 142, 13, 19, 206, 37, 151, 150, 188, 210, 160, 58, 216, 60, 116, 225, 83, 49, 50, 142, 171, 67, 142, 106, 65, 151, 203, 18, 236, 111, 209, 227, 136]

/-- tests/fido-lite.rs: verify_and_parse_auth_data_yubikey_5c_nfc. -/
def nfcAuthData : Bytes := [159, 134, 208, 129, 136, 76, 125, 101, 154, 47, 234, 160, 197, 90, 208, 21, 163, 191, 79, 27, 43, 11, 130, 44, 209, 93, 108, 21, 176, 240, 10, 8, 69, 0, 0, 0, 2, 47, 192, 87, 159, 129, 19, 71, 234, 177, 22, 187, 90, 141, 185, 32, 42, 0, 128, 195, 26, 28, 253, 69, 244, 112, 119, 113, 206, 206, 49, 184, 54, 67, 101, 113, 98, 161, 219, 30, 65, 173, 94, 219, 63, 247, 199, 142, 88, 11, 82, 169, 142, 112, 26, 135, 21, 18, 154, 218, 138, 226, 104, 148, 159, 64, 81, 59, 69, 202, 4, 80, 163, 126, 134, 205, 96, 93, 236, 95, 99, 136, 59, 202, 216, 201, 88, 4, 37, 170, 209, 15, 54, 226, 155, 48, 208, 222, 18, 194, 236, 183, 127, 38, 180, 253, 240, 77, 221, 201, 77, 66, 177, 215, 36, 8, 178, 121, 3, 176, 235, 187, 167, 122, 116, 190, 88, 86, 68, 77, 177, 116, 53, 94, 89, 207, 227, 123, 184, 241, 155, 64, 166, 228, 229, 84, 67, 164, 1, 1, 3, 39, 32, 6, 33, 88, 32, 205, 173, 255, 190, 98, 148, 49, 124, 44, 124, 44, 190, 97, 14, 162, 203, 99, 97, 34, 226, 212, 107, 64, 13, 223, 245, 108, 146, 100, 58, 232, 11]

/-- tests/fido-lite.rs: verify_and_parse_auth_data_yubikey_5c_nfc. -/
def nfcSig : Bytes := [48, 70, 2, 33, 0, 220, 90, 136, 45, 153, 231, 169, 168, 36, 213, 98, 189, 179, 101, 228, 125, 27, 247, 191, 150, 196, 90, 5, 141, 54, 160, 167, 204, 101, 108, 159, 119, 2, 33, 0, 138, 59, 159, 214, 240, 123, 36, 203, 15, 202, 216, 136, 3, 123, 25, 223, 38, 62, 225, 254, 239, 254, 145, 35, 23, 225, 236, 237, 227, 174, 116, 212]

/-- tests/fido-lite.rs: verify_and_parse_auth_data_yubikey_5c_nfc. -/
def nfcClient : Bytes := [150, 37, 143, 154, 46, 53, 105, 39, 63, 194, 72, 239, 202, 197, 10, 126, 218, 217, 27, 150, 200, 239, 27, 97, 153, 78, 162, 122, 15, 190, 11, 44]

/-- tests/fido-lite.rs: verify_and_parse_auth_data_yubikey_5c_nfc. -/
def nfcCert : Bytes := [48, 130, 2, 189, 48, 130, 1, 165, 160, 3, 2, 1, 2, 2, 4, 30, 143, 135, 52, 48, 13, 6, 9, 42, 134, 72, 134, 247, 13, 1, 1, 11, 5, 0, 48, 46, 49, 44, 48, 42, 6, 3, 85, 4, 3, 19, 35, 89, 117, 98, 105, 99, 111, 32, 85, 50, 70, 32, 82, 111, 111, 116, 32, 67, 65, 32, 83, 101, 114, 105, 97, 108, 32, 52, 53, 55, 50, 48, 48, 54, 51, 49, 48, 32, 23, 13, 49, 52, 48, 56, 48, 49, 48, 48, 48, 48, 48, 48, 90, 24, 15, 50, 48, 53, 48, 48, 57, 48, 52, 48, 48, 48, 48, 48, 48, 90, 48, 110, 49, 11, 48, 9, 6, 3, 85, 4, 6, 19, 2, 83, 69, 49, 18, 48, 16, 6, 3, 85, 4, 10, 12, 9, 89, 117, 98, 105, 99, 111, 32, 65, 66, 49, 34, 48, 32, 6, 3, 85, 4, 11, 12, 25, 65, 117, 116, 104, 101, 110, 116, 105, 99, 97, 116, 111, 114, 32, 65, 116, 116, 101, 115, 116, 97, 116, 105, 111, 110, 49, 39, 48, 37, 6, 3, 85, 4, 3, 12, 30, 89, 117, 98, 105, 99, 111, 32, 85, 50, 70, 32, 69, 69, 32, 83, 101, 114, 105, 97, 108, 32, 53, 49, 50, 55, 50, 50, 55, 52, 48, 48, 89, 48, 19, 6, 7, 42, 134, 72, 206, 61, 2, 1, 6, 8, 42, 134, 72, 206, 61, 3, 1, 7, 3, 66, 0, 4, 168, 121, 248, 35, 56, 237, 20, 148, 186, 192, 112, 75, 204, 127, 198, 99, 209, 178, 113, 113, 89, 118, 36, 49, 1, 199, 96, 81, 21, 215, 193, 82, 158, 40, 28, 28, 103, 50, 45, 56, 75, 92, 213, 93, 211, 233, 129, 141, 95, 216, 92, 34, 175, 50, 110, 12, 100, 252, 32, 175, 227, 63, 35, 102, 163, 108, 48, 106, 48, 34, 6, 9, 43, 6, 1, 4, 1, 130, 196, 10, 2, 4, 21, 49, 46, 51, 46, 54, 46, 49, 46, 52, 46, 49, 46, 52, 49, 52, 56, 50, 46, 49, 46, 55, 48, 19, 6, 11, 43, 6, 1, 4, 1, 130, 229, 28, 2, 1, 1, 4, 4, 3, 2, 4, 48, 48, 33, 6, 11, 43, 6, 1, 4, 1, 130, 229, 28, 1, 1, 4, 4, 18, 4, 16, 47, 192, 87, 159, 129, 19, 71, 234, 177, 22, 187, 90, 141, 185, 32, 42, 48, 12, 6, 3, 85, 29, 19, 1, 1, 255, 4, 2, 48, 0, 48, 13, 6, 9, 42, 134, 72, 134, 247, 13, 1, 1, 11, 5, 0, 3, 130, 1, 1, 0, 134, 147, 255, 98, 223, 13, 87, 121, 212, 116, 141, 127, 200, 209, 2, 39, 49, 138, 142, 88, 14, 106, 58, 87, 193, 8, 233, 78, 3, 195, 133, 104, 179, 102, 137, 79, 206, 86, 36, 190, 74, 62, 253, 127, 52, 17, 139, 61, 153, 55, 67, 247, 146, 161, 152, 145, 96, 200, 252, 154, 224, 176, 78, 61, 249, 238, 21, 227, 232, 140, 4, 252, 130, 168, 220, 191, 88, 24, 225, 8, 220, 194, 150, 133, 119, 174, 121, 255, 102, 43, 148, 115, 78, 61, 236, 69, 151, 48, 93, 115, 230, 229, 94, 226, 190, 185, 205, 150, 120, 202, 9, 53, 229, 51, 235, 99, 143, 142, 38, 250, 187, 129, 124, 218, 68, 31, 190, 152, 49, 131, 42, 229, 246, 226, 173, 153, 47, 158, 187, 219, 76, 98, 35, 139, 143, 141, 122, 180, 129, 214, 211, 38, 59, 205, 191, 158, 74, 87, 85, 3, 112, 152, 138, 213, 129, 52, 64, 250, 3, 44, 173, 182, 114, 60, 173, 216, 248, 215, 186, 128, 159, 117, 180, 60, 255, 160, 165, 185, 173, 209, 66, 50, 239, 157, 158, 20, 129, 38, 56, 35, 60, 76, 164, 168, 115, 185, 248, 172, 152, 227, 43, 161, 145, 103, 96, 110, 21, 144, 159, 205, 219, 74, 45, 255, 189, 174, 70, 32, 36, 159, 154, 102, 70, 172, 129, 228, 131, 45, 17, 25, 254, 191, 170, 115, 26, 136, 45, 162, 90, 119, 130, 125, 70, 209, 144, 23]

/-- tests/yubikey-lite.rs: test_5c_attestation_verification. -/
def pivClient : Bytes := [48, 130, 2, 114, 48, 130, 1, 90, 160, 3, 2, 1, 2, 2, 16, 1, 230, 15, 140, 146, 210, 233, 7, 246, 251, 85, 209, 49, 64, 12, 155, 48, 13, 6, 9, 42, 134, 72, 134, 247, 13, 1, 1, 11, 5, 0, 48, 33, 49, 31, 48, 29, 6, 3, 85, 4, 3, 12, 22, 89, 117, 98, 105, 99, 111, 32, 80, 73, 86, 32, 65, 116, 116, 101, 115, 116, 97, 116, 105, 111, 110, 48, 32, 23, 13, 49, 54, 48, 51, 49, 52, 48, 48, 48, 48, 48, 48, 90, 24, 15, 50, 48, 53, 50, 48, 52, 49, 55, 48, 48, 48, 48, 48, 48, 90, 48, 37, 49, 35, 48, 33, 6, 3, 85, 4, 3, 12, 26, 89, 117, 98, 105, 75, 101, 121, 32, 80, 73, 86, 32, 65, 116, 116, 101, 115, 116, 97, 116, 105, 111, 110, 32, 57, 51, 48, 118, 48, 16, 6, 7, 42, 134, 72, 206, 61, 2, 1, 6, 5, 43, 129, 4, 0, 34, 3, 98, 0, 4, 168, 206, 95, 135, 104, 236, 40, 239, 81, 112, 9, 14, 184, 21, 245, 120, 185, 32, 3, 46, 18, 136, 227, 82, 160, 253, 235, 208, 32, 8, 187, 241, 237, 2, 120, 45, 107, 151, 120, 15, 84, 182, 206, 17, 192, 23, 87, 24, 95, 87, 214, 180, 184, 43, 43, 69, 73, 194, 87, 200, 82, 170, 195, 221, 96, 88, 218, 154, 29, 140, 13, 34, 72, 124, 169, 24, 128, 181, 143, 24, 214, 41, 94, 110, 98, 240, 244, 24, 118, 37, 164, 134, 108, 123, 22, 240, 163, 78, 48, 76, 48, 17, 6, 10, 43, 6, 1, 4, 1, 130, 196, 10, 3, 3, 4, 3, 5, 2, 4, 48, 20, 6, 10, 43, 6, 1, 4, 1, 130, 196, 10, 3, 7, 4, 6, 2, 4, 0, 179, 183, 255, 48, 16, 6, 10, 43, 6, 1, 4, 1, 130, 196, 10, 3, 8, 4, 2, 1, 3, 48, 15, 6, 10, 43, 6, 1, 4, 1, 130, 196, 10, 3, 9, 4, 1, 5, 48, 13, 6, 9, 42, 134, 72, 134, 247, 13, 1, 1, 11, 5, 0, 3, 130, 1, 1, 0, 176, 180, 151, 125, 238, 127, 199, 89, 79, 73, 145, 57, 172, 109, 220, 62, 202, 108, 107, 91, 21, 178, 36, 113, 158, 213, 224, 7, 150, 59, 168, 88, 168, 224, 119, 23, 90, 34, 122, 138, 115, 67, 128, 243, 179, 251, 113, 239, 47, 126, 210, 153, 231, 168, 160, 56, 214, 254, 33, 81, 161, 228, 40, 156, 35, 19, 41, 134, 44, 175, 15, 226, 145, 48, 108, 204, 167, 34, 104, 203, 231, 235, 101, 246, 240, 1, 116, 29, 209, 15, 16, 104, 79, 87, 37, 130, 139, 238, 132, 85, 30, 194, 174, 3, 223, 78, 17, 86, 36, 218, 207, 55, 67, 3, 239, 122, 134, 139, 64, 43, 196, 129, 60, 116, 51, 182, 48, 113, 101, 239, 222, 150, 24, 168, 150, 215, 207, 108, 94, 231, 78, 218, 66, 199, 221, 210, 170, 247, 213, 0, 84, 90, 91, 146, 118, 210, 14, 66, 196, 32, 34, 147, 22, 54, 215, 186, 98, 202, 101, 98, 169, 189, 166, 140, 100, 0, 6, 194, 135, 228, 158, 249, 181, 211, 49, 88, 255, 198, 44, 142, 143, 18, 126, 102, 152, 155, 104, 205, 181, 133, 99, 62, 221, 205, 238, 11, 169, 70, 149, 100, 141, 91, 227, 87, 118, 206, 233, 212, 72, 133, 157, 152, 49, 84, 145, 107, 230, 236, 71, 36, 66, 214, 185, 239, 168, 29, 185, 217, 143, 226, 9, 16, 175, 152, 108, 55, 233, 75, 180, 127, 200, 148, 147, 75, 71, 50]

/-- tests/yubikey-lite.rs: test_5c_attestation_verification. -/
def pivIntermediate : Bytes := [48, 130, 2, 230, 48, 130, 1, 206, 160, 3, 2, 1, 2, 2, 9, 0, 164, 255, 118, 166, 177, 162, 22, 226, 48, 13, 6, 9, 42, 134, 72, 134, 247, 13, 1, 1, 11, 5, 0, 48, 43, 49, 41, 48, 39, 6, 3, 85, 4, 3, 12, 32, 89, 117, 98, 105, 99, 111, 32, 80, 73, 86, 32, 82, 111, 111, 116, 32, 67, 65, 32, 83, 101, 114, 105, 97, 108, 32, 50, 54, 51, 55, 53, 49, 48, 32, 23, 13, 49, 54, 48, 51, 49, 52, 48, 48, 48, 48, 48, 48, 90, 24, 15, 50, 48, 53, 50, 48, 52, 49, 55, 48, 48, 48, 48, 48, 48, 90, 48, 33, 49, 31, 48, 29, 6, 3, 85, 4, 3, 12, 22, 89, 117, 98, 105, 99, 111, 32, 80, 73, 86, 32, 65, 116, 116, 101, 115, 116, 97, 116, 105, 111, 110, 48, 130, 1, 34, 48, 13, 6, 9, 42, 134, 72, 134, 247, 13, 1, 1, 1, 5, 0, 3, 130, 1, 15, 0, 48, 130, 1, 10, 2, 130, 1, 1, 0, 192, 56, 79, 221, 133, 8, 200, 181, 146, 142, 199, 136, 40, 220, 204, 177, 202, 130, 118, 39, 44, 150, 183, 100, 196, 248, 12, 160, 175, 14, 115, 27, 180, 122, 186, 248, 202, 241, 87, 137, 38, 89, 47, 125, 129, 77, 150, 11, 15, 195, 123, 99, 231, 117, 115, 12, 58, 85, 91, 5, 97, 220, 39, 211, 82, 156, 233, 130, 235, 192, 206, 69, 32, 223, 230, 177, 121, 6, 76, 247, 79, 86, 21, 94, 168, 211, 7, 135, 132, 50, 98, 182, 34, 199, 5, 154, 77, 176, 194, 26, 132, 3, 107, 21, 101, 137, 245, 102, 61, 45, 54, 50, 249, 188, 52, 56, 194, 215, 181, 247, 46, 27, 21, 212, 232, 146, 255, 3, 146, 114, 194, 60, 28, 113, 160, 65, 116, 8, 64, 64, 204, 158, 222, 156, 193, 159, 55, 64, 174, 247, 237, 107, 174, 230, 232, 82, 205, 61, 227, 84, 236, 246, 241, 25, 226, 143, 90, 127, 240, 247, 21, 89, 193, 138, 88, 35, 213, 96, 214, 194, 152, 39, 92, 155, 251, 16, 120, 144, 124, 203, 150, 132, 68, 54, 158, 60, 130, 25, 191, 214, 177, 156, 52, 244, 14, 117, 14, 237, 160, 233, 205, 112, 59, 139, 181, 207, 110, 185, 34, 72, 17, 41, 237, 16, 170, 92, 107, 57, 112, 26, 134, 9, 186, 191, 255, 17, 161, 251, 240, 6, 180, 32, 149, 254, 196, 12, 157, 56, 229, 209, 221, 164, 217, 15, 23, 79, 2, 3, 1, 0, 1, 163, 21, 48, 19, 48, 17, 6, 10, 43, 6, 1, 4, 1, 130, 196, 10, 3, 3, 4, 3, 5, 2, 4, 48, 13, 6, 9, 42, 134, 72, 134, 247, 13, 1, 1, 11, 5, 0, 3, 130, 1, 1, 0, 112, 167, 167, 121, 57, 145, 6, 129, 193, 137, 145, 246, 117, 7, 40, 102, 53, 118, 0, 175, 132, 149, 37, 95, 100, 128, 201, 141, 159, 81, 230, 140, 185, 68, 92, 69, 25, 86, 4, 92, 58, 10, 242, 192, 142, 244, 172, 228, 60, 183, 59, 162, 86, 14, 105, 62, 213, 97, 89, 163, 69, 12, 175, 94, 86, 100, 88, 146, 228, 90, 114, 208, 207, 134, 90, 240, 66, 68, 253, 216, 153, 180, 176, 248, 157, 173, 147, 37, 178, 164, 34, 8, 187, 183, 12, 180, 186, 81, 98, 66, 249, 72, 9, 86, 153, 64, 128, 207, 199, 89, 62, 78, 69, 44, 250, 94, 170, 108, 96, 66, 116, 104, 73, 39, 186, 236, 133, 226, 191, 118, 205, 200, 240, 53, 220, 218, 23, 35, 108, 112, 210, 21, 144, 83, 95, 188, 230, 215, 211, 198, 132, 241, 58, 32, 51, 99, 197, 41, 1, 61, 134, 130, 11, 82, 152, 44, 14, 222, 193, 236, 28, 149, 24, 93, 28, 130, 127, 199, 186, 142, 210, 75, 56, 80, 113, 254, 236, 254, 84, 154, 17, 31, 184, 84, 84, 230, 62, 177, 179, 249, 36, 159, 55, 117, 26, 214, 102, 68, 185, 236, 119, 247, 171, 66, 206, 181, 185, 246, 238, 243, 62, 126, 98, 244, 203, 188, 248, 190, 0, 232, 13, 231, 102, 174, 107, 27, 62, 219, 17, 115, 123, 123, 69, 106, 42, 9, 175, 52, 34, 173, 99, 62, 247, 102, 230, 12]

end Ssh.Concrete
