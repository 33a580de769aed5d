import Verif.Go
/-!
Protocol versions (tls/common.go:23-27, tls/gm_support.go:23) and the cipher suite tables
(tls/cipher_suites.go:25-104, tls/gm_support.go:119-122).
-/
namespace Verif.Tls
open Verif

abbrev Version := BitVec 16
def vSSL30 : Version := 0x0300
def vTLS10 : Version := 0x0301
def vTLS11 : Version := 0x0302
def vTLS12 : Version := 0x0303
def vGMSSL : Version := 0x0101

/-- the `ka` constructors, tls/cipher_suites.go:328-344, tls/gm_support.go:172-182 -/
inductive KA where
  | rsa | ecdheRSA | ecdheECDSA | eccGM | ecdheGM
deriving DecidableEq, Repr

/-- the `cipher`/`aead` constructors (`aead == nil` exactly for the first four) -/
inductive CipherKind where
  | rc4 | des3 | aesCBC | sm4CBC | aesGCM | chacha
deriving DecidableEq, Repr

/-- the `mac` constructors -/
inductive MacKind where
  | none | sha1 | sha256 | sm3
deriving DecidableEq, Repr

/-- tls/cipher_suites.go:64-76; the flag bits are separate fields. -/
structure Suite where
  id : BitVec 16
  keyLen : Nat
  macLen : Nat
  ivLen : Nat
  ka : KA
  ecdhe : Bool
  ecdsa : Bool
  tls12 : Bool
  sha384 : Bool
  defaultOff : Bool
  cipher : CipherKind
  mac : MacKind
deriving DecidableEq, Repr

/-- tls/cipher_suites.go:78-104, in order -/
def cipherSuites : List Suite :=
  [ ⟨0xcca8, 32, 0, 12, .ecdheRSA, true, false, true, false, false, .chacha, .none⟩,
    ⟨0xcca9, 32, 0, 12, .ecdheECDSA, true, true, true, false, false, .chacha, .none⟩,
    ⟨0xc02f, 16, 0, 4, .ecdheRSA, true, false, true, false, false, .aesGCM, .none⟩,
    ⟨0xc02b, 16, 0, 4, .ecdheECDSA, true, true, true, false, false, .aesGCM, .none⟩,
    ⟨0xc030, 32, 0, 4, .ecdheRSA, true, false, true, true, false, .aesGCM, .none⟩,
    ⟨0xc02c, 32, 0, 4, .ecdheECDSA, true, true, true, true, false, .aesGCM, .none⟩,
    ⟨0xc023, 16, 32, 16, .ecdheECDSA, true, true, true, false, true, .aesCBC, .sha256⟩,
    ⟨0xc009, 16, 20, 16, .ecdheECDSA, true, true, false, false, false, .aesCBC, .sha1⟩,
    ⟨0xc014, 32, 20, 16, .ecdheRSA, true, false, false, false, false, .aesCBC, .sha1⟩,
    ⟨0xc00a, 32, 20, 16, .ecdheECDSA, true, true, false, false, false, .aesCBC, .sha1⟩,
    ⟨0x009c, 16, 0, 4, .rsa, false, false, true, false, false, .aesGCM, .none⟩,
    ⟨0x009d, 32, 0, 4, .rsa, false, false, true, true, false, .aesGCM, .none⟩,
    ⟨0x003c, 16, 32, 16, .rsa, false, false, true, false, true, .aesCBC, .sha256⟩,
    ⟨0x002f, 16, 20, 16, .rsa, false, false, false, false, false, .aesCBC, .sha1⟩,
    ⟨0x0035, 32, 20, 16, .rsa, false, false, false, false, false, .aesCBC, .sha1⟩,
    ⟨0xc012, 24, 20, 8, .ecdheRSA, true, false, false, false, false, .des3, .sha1⟩,
    ⟨0x000a, 24, 20, 8, .rsa, false, false, false, false, false, .des3, .sha1⟩,
    ⟨0x0005, 16, 20, 0, .rsa, false, false, false, false, true, .rc4, .sha1⟩,
    ⟨0xc011, 16, 20, 0, .ecdheRSA, true, false, false, false, true, .rc4, .sha1⟩,
    ⟨0xc007, 16, 20, 0, .ecdheECDSA, true, true, false, false, true, .rc4, .sha1⟩ ]

/-- tls/gm_support.go:119-122 -/
def gmCipherSuites : List Suite :=
  [ ⟨0xe013, 16, 32, 16, .eccGM, false, true, false, false, false, .sm4CBC, .sm3⟩,
    ⟨0xe011, 16, 32, 16, .ecdheGM, true, true, false, false, false, .sm4CBC, .sm3⟩ ]

end Verif.Tls
