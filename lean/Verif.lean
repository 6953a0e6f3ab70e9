import Verif.Props.Base16
import Verif.Props.Base64
import Verif.Props.Base32
import Verif.Props.Uuencode
import Verif.Props.Padding
import Verif.Props.BlockModes
import Verif.Props.Gcm
import Verif.Props.GcmTask
import Verif.Props.BlockTask
import Verif.Props.Sha
import Verif.Props.HashGeneric
import Verif.Props.Hmac
import Verif.Props.Kdf
import Verif.Props.Hotp
import Verif.Props.Arc4
import Verif.Props.Tea
import Verif.Props.Salsa20Task
import Verif.Props.SipHash
import Verif.Props.Memory
import Verif.Props.Random
import Verif.Props.Mp
import Verif.Props.MpDiv
import Verif.Props.MpHex
import Verif.Props.MpGcd
import Verif.Props.MpInv
import Verif.Props.MpReduce
import Verif.Props.SmallPrimes
import Verif.Props.MpPrime
import Verif.Props.MillerRabin
import Verif.Model.KeyLoad
import Verif.Model.Aes
import Verif.Spec.Aes
import Verif.Lemmas.Aes
import Verif.Props.KeyLoad
import Verif.Props.Aes
import Verif.Model.Rot
import Verif.Lemmas.Rot
import Verif.Model.Rc5
import Verif.Spec.Rc
import Verif.Props.Rc5
import Verif.Model.Shacal
import Verif.Spec.Shacal
import Verif.Props.Shacal
import Verif.Model.Noekeon
import Verif.Props.Noekeon
import Verif.Model.Feal
import Verif.Props.Feal
import Verif.Model.Gost
import Verif.Spec.Gost
import Verif.Props.Gost
import Verif.Model.Misty1
import Verif.Props.Misty1
import Verif.Model.Present
import Verif.Spec.Present
import Verif.Props.Present
import Verif.Model.Rc2
import Verif.Props.Rc2
import Verif.Model.Pem
import Verif.Props.Pem
import Verif.Model.Fortuna
import Verif.Props.Fortuna
import Verif.Model.Poly1305Mp
import Verif.Model.Poly1305
import Verif.Props.Poly1305
import Verif.Spec.Poly1305
import Verif.Props.Poly1305Tag
import Verif.Model.TaskCheck
import Verif.Props.TaskCheck
import Verif.Model.Oaep
import Verif.Spec.Pkcs1
import Verif.Props.Oaep
import Verif.Model.Rsa
import Verif.Lemmas.Pk
import Verif.Lemmas.MpPow
import Verif.Lemmas.Pratt
import Verif.Props.Rsa
import Verif.Props.RsaKeys
import Verif.Model.DlParams
import Verif.Model.Dh
import Verif.Model.Elgamal
import Verif.Model.Dsa
import Verif.Props.DlParams
import Verif.Props.Dsa
import Verif.Props.Dh
import Verif.Props.Elgamal
import Verif.Props.DlVerify
import Verif.Model.DhParams
import Verif.Props.DhParams
import Verif.Props.DlRun
import Verif.Props.EcTotal
import Verif.Props.MpDivOdd
import Verif.Props.DhGroups
import Verif.Props.Csprng
import Verif.Model.Huffman
import Verif.Lemmas.Huffman
import Verif.Props.Huffman
import Verif.Model.Idea
import Verif.Spec.Idea
import Verif.Props.Idea
import Verif.Model.Safer
import Verif.Spec.Safer
import Verif.Props.Safer
import Verif.Lemmas.KeyWords
import Verif.Model.Des
import Verif.Spec.Des
import Verif.Props.Des
import Verif.Model.Blowfish
import Verif.Spec.Blowfish
import Verif.Props.Blowfish
import Verif.Model.Cast5
import Verif.Spec.Cast5
import Verif.Props.Cast5
import Verif.Model.Serpent
import Verif.Spec.Serpent
import Verif.Props.Serpent
import Verif.Model.Mars
import Verif.Spec.Mars
import Verif.Props.Mars
import Verif.Props.MarsSbox
import Verif.Model.Twofish
import Verif.Spec.Twofish
import Verif.Props.Twofish
import Verif.Props.Bcrypt
import Verif.Model.Camellia
import Verif.Spec.Camellia
import Verif.Lemmas.Camellia
import Verif.Props.Camellia
import Verif.Model.Ec
import Verif.Lemmas.Ec
import Verif.Lemmas.PemPut
import Verif.Props.Ec
import Verif.Model.Ecdh
import Verif.Props.Ecdh
import Verif.Lemmas.EcJac
import Verif.Model.Ecdsa
import Verif.Props.Ecdsa
import Verif.Model.Curves
import Verif.Props.Curves
import Verif.Lemmas.BrainPrimes
import Verif.Props.CurveOrders
import Verif.Model.MdCommon
import Verif.Model.Md4
import Verif.Model.Md5
import Verif.Model.Ripemd
import Verif.Spec.Md
import Verif.Lemmas.Md
import Verif.Lemmas.Sine
import Verif.Props.Md4
import Verif.Props.Md5
import Verif.Props.Ripemd
import Verif.Model.Tiger
import Verif.Spec.Tiger
import Verif.Lemmas.Tiger
import Verif.Lemmas.TigerGen
import Verif.Lemmas.HashRun
import Verif.Props.Tiger
import Verif.Props.Whirlpool
import Verif.Props.Keccak
import Verif.Props.Rabbit
import Verif.Props.Blake2
import Verif.Props.Blake3
import Verif.Props.Small
import Verif.Props.Seal
import Verif.Props.Argon2
import Verif.Spec.Rc2
import Verif.Spec.Misty1
import Verif.Spec.Noekeon
import Verif.Spec.Feal
import Verif.Props.Rc2Rfc
import Verif.Props.Misty1Rfc
import Verif.Props.NoekeonSpec
import Verif.Props.FealSpec
import Verif.Props.SigVerdict
import Verif.Props.OaepDoc
import Verif.Props.DrawEnds
import Verif.Props.DrawUniform
import Verif.Props.EcUniform
import Verif.Props.DrawHalf
import Verif.Props.DrawSlow
import Verif.Props.EcCount
