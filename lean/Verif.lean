import Verif.Base.Basic
import Verif.Base.HashClass
import Verif.Base.Mem
import Verif.Check.RepoTests
import Verif.Model.Aes
import Verif.Model.Asn1
import Verif.Model.Base64
import Verif.Model.Bignum
import Verif.Model.BignumPrint
import Verif.Model.BlockHash
import Verif.Model.ChaCha20
import Verif.Model.Crc
import Verif.Model.Gcm
import Verif.Model.Ghash
import Verif.Model.Hash
import Verif.Model.Hkdf
import Verif.Model.Leak
import Verif.Model.LeakGcm
import Verif.Model.LeakHash
import Verif.Model.LeakPrime
import Verif.Model.LeakSign
import Verif.Model.LeakText
import Verif.Model.Md5
import Verif.Model.Modes
import Verif.Model.Mont
import Verif.Model.Prime
import Verif.Model.Random
import Verif.Model.RandomSeed
import Verif.Model.Rsa
import Verif.Model.Sha1
import Verif.Model.Sha2
import Verif.Model.Sha3
import Verif.Model.Simd
import Verif.Model.Threads
import Verif.Model.Truststore
import Verif.Model.X25519
import Verif.Model.X509
import Verif.Proof.Aes
import Verif.Proof.AesTables
import Verif.Proof.AesTrail
import Verif.Proof.Asn1
import Verif.Proof.Base64
import Verif.Proof.BigPrime
import Verif.Proof.BigPrime01
import Verif.Proof.BigPrime02
import Verif.Proof.BigPrime03
import Verif.Proof.BigPrime04
import Verif.Proof.BigPrime05
import Verif.Proof.BigPrime06
import Verif.Proof.BigPrime07
import Verif.Proof.BigPrime08
import Verif.Proof.BigPrime09
import Verif.Proof.BigPrime10
import Verif.Proof.BigPrime11
import Verif.Proof.BigPrime12
import Verif.Proof.BigPrime13
import Verif.Proof.BigPrime14
import Verif.Proof.BigPrime15
import Verif.Proof.BigPrime16
import Verif.Proof.BigPrime17
import Verif.Proof.BigPrime18
import Verif.Proof.BigPrimes
import Verif.Proof.Bignum
import Verif.Proof.BignumOps
import Verif.Proof.BlockHash
import Verif.Proof.Cert
import Verif.Proof.ChaCha20
import Verif.Proof.Collide25519
import Verif.Proof.Crc
import Verif.Proof.CrcOrder
import Verif.Proof.CrcTriple
import Verif.Proof.Curve
import Verif.Proof.Date
import Verif.Proof.Extend
import Verif.Proof.GF128
import Verif.Proof.Gcm
import Verif.Proof.GcmCtr
import Verif.Proof.GcmSession
import Verif.Proof.Ghash
import Verif.Proof.GhashUniversal
import Verif.Proof.Hash
import Verif.Proof.Hkdf
import Verif.Proof.Keccak
import Verif.Proof.KeccakInj
import Verif.Proof.KeySizes
import Verif.Proof.Ladder
import Verif.Proof.LcgReach
import Verif.Proof.Leak
import Verif.Proof.LeakGcm
import Verif.Proof.LeakGcmSame
import Verif.Proof.LeakHash
import Verif.Proof.LeakHashSame
import Verif.Proof.LeakKdf
import Verif.Proof.LeakPrime
import Verif.Proof.LeakPrimeSync
import Verif.Proof.LeakPrimeTest
import Verif.Proof.LeakSame
import Verif.Proof.LeakSign
import Verif.Proof.LeakSync
import Verif.Proof.LowOrder
import Verif.Proof.LucasTree
import Verif.Proof.Md5
import Verif.Proof.Mont
import Verif.Proof.Name
import Verif.Proof.NatSha512
import Verif.Proof.Order25519
import Verif.Proof.Pem
import Verif.Proof.Prime
import Verif.Proof.Prime25519
import Verif.Proof.PrimeOrder
import Verif.Proof.Pseudoprime
import Verif.Proof.Pss
import Verif.Proof.Random
import Verif.Proof.Rsa
import Verif.Proof.RsaFixed
import Verif.Proof.Secrets25519
import Verif.Proof.Sha2
import Verif.Proof.Sha3
import Verif.Proof.Simd
import Verif.Proof.SinTable
import Verif.Proof.Termination
import Verif.Proof.Truststore
import Verif.Proof.Verify
import Verif.Proof.Words
import Verif.Proof.X25519
import Verif.Proof.X25519Curve
import Verif.Proof.XLin
import Verif.Props.Aes
import Verif.Props.AesSym
import Verif.Props.AesTrail
import Verif.Props.AltName
import Verif.Props.Asn1
import Verif.Props.Base64
import Verif.Props.Bignum
import Verif.Props.BignumPrint
import Verif.Props.Cert
import Verif.Props.ChaCha20
import Verif.Props.ChaChaRounds
import Verif.Props.Collision
import Verif.Props.Crc
import Verif.Props.CrcAffine
import Verif.Props.CrcForge
import Verif.Props.CrcThreeBits
import Verif.Props.CrcTwoBits
import Verif.Props.Date
import Verif.Props.DateOrder
import Verif.Props.EndToEnd
import Verif.Props.FixedPoint
import Verif.Props.GF128
import Verif.Props.Gcm
import Verif.Props.GcmCommit
import Verif.Props.Ghash
import Verif.Props.Hash
import Verif.Props.HashSizes
import Verif.Props.Hkdf
import Verif.Props.HkdfLimits
import Verif.Props.HkdfSchedule
import Verif.Props.HmacKeys
import Verif.Props.InnerAlgorithm
import Verif.Props.InnerCollision
import Verif.Props.Issuer
import Verif.Props.KeccakPerm
import Verif.Props.KeccakSym
import Verif.Props.KeyPair
import Verif.Props.KeySizes
import Verif.Props.KeySpace
import Verif.Props.KnownCollision
import Verif.Props.LengthExtension
import Verif.Props.Malleable
import Verif.Props.MerkleDamgard
import Verif.Props.Modes
import Verif.Props.Mont
import Verif.Props.Multicollision
import Verif.Props.Name
import Verif.Props.NoKey
import Verif.Props.NonceReuse
import Verif.Props.Pem
import Verif.Props.Prime
import Verif.Props.PrimeEnds
import Verif.Props.PrimeEndsSmall
import Verif.Props.PrimeExact
import Verif.Props.PrimeWrong
import Verif.Props.PrivateKey
import Verif.Props.PssShort
import Verif.Props.PssSizes
import Verif.Props.Random
import Verif.Props.RandomPast
import Verif.Props.RandomSeed
import Verif.Props.RandomState
import Verif.Props.Reveal
import Verif.Props.RoundKeys
import Verif.Props.Rsa
import Verif.Props.RsaRaw
import Verif.Props.SaltLeak
import Verif.Props.ScheduleBinding
import Verif.Props.SideChannel
import Verif.Props.SideChannelGcm
import Verif.Props.SideChannelHash
import Verif.Props.SideChannelPrime
import Verif.Props.SideChannelSign
import Verif.Props.SideChannelText
import Verif.Props.SignedFields
import Verif.Props.Termination
import Verif.Props.Threads
import Verif.Props.TrustAgain
import Verif.Props.TrustGrow
import Verif.Props.TrustWork
import Verif.Props.Truststore
import Verif.Props.Verify
import Verif.Props.VerifyWitness
import Verif.Props.Witnesses
import Verif.Props.X25519
import Verif.Props.X25519Orders
import Verif.Props.X25519Same
import Verif.Spec.Aes
import Verif.Spec.AltName
import Verif.Spec.Base64
import Verif.Spec.Bignum
import Verif.Spec.BlockHash
import Verif.Spec.ChaCha20
import Verif.Spec.Crc
import Verif.Spec.Date
import Verif.Spec.Der
import Verif.Spec.Gcm
import Verif.Spec.Hash
import Verif.Spec.HexNumber
import Verif.Spec.Hkdf
import Verif.Spec.Md5
import Verif.Spec.Pem
import Verif.Spec.Prime
import Verif.Spec.PrivateKey
import Verif.Spec.PssSize
import Verif.Spec.Random
import Verif.Spec.Roots
import Verif.Spec.Rsa
import Verif.Spec.Sha2
import Verif.Spec.Sha3
import Verif.Spec.Signature
import Verif.Spec.X25519
import Verif.Spec.X509
