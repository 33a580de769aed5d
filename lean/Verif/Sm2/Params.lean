import Verif.Go
/-! Domain parameters, `sm2/sm2p256_amd64.go:40-52` and `sm2/sm2p256_arm64.go:24-32`. -/
namespace Verif.Sm2

/-- `p256.P` (field prime), sm2/sm2p256_amd64.go:43. -/
def P : Nat := 0xFFFFFFFEFFFFFFFFFFFFFFFFFFFFFFFFFFFFFFFF00000000FFFFFFFFFFFFFFFF
/-- `p256.N` (group order), sm2/sm2p256_amd64.go:44. -/
def N : Nat := 0xFFFFFFFEFFFFFFFFFFFFFFFFFFFFFFFF7203DF6B21C6052B53BBF40939D54123
/-- `p256.B`, sm2/sm2p256_amd64.go:45. -/
def B : Nat := 0x28E9FA9E9D9F5E344D5A9E4BCF6509A7F39789F515AB8F92DDBCBD414D940E93
/-- `p256.Gx`, sm2/sm2p256_amd64.go:46. -/
def Gx : Nat := 0x32C4AE2C1F1981195F9904466A39C9948FE30BBFF2660BE1715A4589334C74C7
/-- `p256.Gy`, sm2/sm2p256_amd64.go:47. -/
def Gy : Nat := 0xBC3736A2F4F6779C59BDCEE36B692153D0A9877CC62A474002DF32E52139F0A0
/-- the curve coefficient `A`, sm2/sm2p256_amd64.go:49. -/
def A : Nat := 0xFFFFFFFEFFFFFFFFFFFFFFFFFFFFFFFFFFFFFFFF00000000FFFFFFFFFFFFFFFC

end Verif.Sm2
