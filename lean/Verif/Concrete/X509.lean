import Verif.Concrete.Crypto
import Verif.Model.Piv

/-! # X.509 certificates, concretely: as much as the tests of attestations need -/

namespace Ssh.Concrete

/-- The arcs of an OID after the first byte. -/
def oidArcs : Bytes → Nat → List Nat
  | [], _ => []
  | b :: bs, acc => if b < 0x80 then (acc * 128 + b.toNat) :: oidArcs bs 0 else oidArcs bs (acc * 128 + (b.toNat - 128))

def oidText (b : Bytes) : String :=
  match oidArcs b 0 with
  | [] => ""
  | a :: as => ".".intercalate ((min (a / 40) 2 :: (a - 40 * min (a / 40) 2) :: as).map toString)

def spkiOf (raw : Bytes) : Option Spki := do
  let l ← derSeq raw
  match l with
  | [(0x30, alg), (3, key)] =>
    let al ← derAll (alg.length + 1) alg
    match al with
    | [(6, o)] => return ⟨oidText o, none, key.drop 1, raw⟩
    | [(6, o), (6, p)] => return ⟨oidText o, some (some (oidText p)), key.drop 1, raw⟩
    | [(6, o), _] => return ⟨oidText o, some none, key.drop 1, raw⟩
    | _ => none
  | _ => none

/-- One object with its header. -/
def derWhole (b : Bytes) : Option (Bytes × Bytes) := do
  let (_, _, rest) ← derNext b
  return (b.take (b.length - rest.length), rest)

def derWholes : Nat → Bytes → Option (List Bytes)
  | 0, _ => none
  | _, [] => some []
  | n + 1, b => do
    let (x, rest) ← derWhole b
    let tl ← derWholes n rest
    return x :: tl

def children (b : Bytes) : Option (List Bytes) := do
  let (_, c, _) ← derNext b
  derWholes (c.length + 1) c

def extensionOf (b : Bytes) : Option (String × Bytes) := do
  let l ← derSeq b
  match l with
  | [(6, o), (4, v)] => return (oidText o, v)
  | [(6, o), _, (4, v)] => return (oidText o, v)
  | _ => none

/-- The extensions, if there are any. -/
def certExtensions : List Bytes → Option (List (String × Bytes))
  | [] => some []
  | b :: _ => do
    let (_, exts, _) ← derNext b
    let exts ← children exts
    exts.mapM extensionOf

/-- A certificate of version 3, with its extensions last. -/
def parseCert (b : Bytes) : Option X509Cert := do
  let (raw, _) ← derWhole b
  let top ← children raw
  let tbs ← children (top.getD 0 [])
  let spki ← spkiOf (tbs.getD 6 [])
  let exts ← certExtensions (tbs.drop 7)
  return ⟨spki, exts, raw⟩

/-- Signatures with RSA and SHA-256, and with ECDSA on P-256 and SHA-256. -/
def verifyCert (cert : X509Cert) (key : Spki) : Bool :=
  match (do
    let top ← children cert.raw
    let alg ← children (top.getD 1 [])
    let (_, alg, _) ← derNext (alg.getD 0 [])
    let (_, sig, _) ← derNext (top.getD 2 [])
    return (oidText alg, top.getD 0 [], sig.drop 1) : Option (String × Bytes × Bytes)) with
  | some ("1.2.840.113549.1.1.11", tbs, sig) =>
    match derSeq key.keyData with
    | some [(2, n), (2, e)] => rsaVerify .sha256 (n.dropWhile (· == 0)) e tbs sig
    | _ => false
  | some ("1.2.840.10045.4.3.2", tbs, sig) => ecdsaAsn1Verify key.keyData tbs sig
  | _ => false

def pemBytes (s : String) : Option Bytes :=
  let ls := (lines s.toList).filter fun l => ¬ "-----".toList.isPrefixOf l
  b64Decode ls.flatten

def tagged (tag : UInt8) (b : Bytes) : Option Bytes := do
  let (t, c, _) ← derNext b
  if t = tag then some c else none

/-- An object with the given tag and contents, and the objects in the contents. -/
def derObjOf (t : UInt8) (c : Bytes) (inner : Option (List DerObj)) : Option DerObj :=
  if t = 0x30 then inner.map .seq
  else if t = 6 then some (.oid (oidText c))
  else if t = 3 then
    match c with
    | u :: d => if u < 8 then some (.bitString d) else none
    | [] => none
  else some .other

/-- Consecutive objects, with those inside them. -/
def derObjs : Nat → Bytes → Option (List DerObj)
  | 0, _ => none
  | _, [] => some []
  | n + 1, b => do
    let (t, c, rest) ← derNext b
    let o ← derObjOf t c (derObjs n c)
    let tl ← derObjs n rest
    return o :: tl

def parseSequence (b : Bytes) : Option DerObj := do
  let (t, c, _) ← derNext b
  if t = 0x30 then (derObjs (c.length + 1) c).map .seq else none

/-- A certification request: version, subject, key, attributes. -/
def parseRequest (b : Bytes) : Option Spki := do
  let top ← children b
  let info ← children (top.getD 0 [])
  spkiOf (info.getD 2 [])

def realX509 : X509Env where
  parsePem s := (pemBytes s).bind parseCert
  parseDer := parseCert
  parseCsr := parseRequest
  verify := verifyCert
  octetString := tagged 4
  bitString b := (tagged 3 b).map (·.drop 1)
  integer := tagged 2
  derSequence := parseSequence

end Ssh.Concrete
