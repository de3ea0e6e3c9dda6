import Verif.Basic
import Verif.Util.Props
import Verif.Encoding.Props
import Verif.Encoding.Base58Props
import Verif.Encoding.Bech32Props
import Verif.Encoding.BechErrorProps
import Verif.Encoding.Cash32Props
import Verif.Asn1.Props
import Verif.Stream.Props
import Verif.Mac.Props
import Verif.Aead.Props
import Verif.Hash.Props
import Verif.Kdf.Props
import Verif.Drbg.Props
import Verif.Rand.Props
import Verif.Mpi.ArithProps
import Verif.Mpi.DivProps
import Verif.Mpi.MpzProps
import Verif.Mpi.BitProps
import Verif.Mpi.GcdProps
import Verif.Mpi.PowmProps
import Verif.Mpi.RootProps
import Verif.Mpi.StrProps
import Verif.Cipher.PadProps
import Verif.Cipher.ModeProps
import Verif.Cipher.StreamProps
import Verif.Cipher.AeadProps
import Verif.Block.Aes
import Verif.Block.AesInv
import Verif.Block.AesKey
import Verif.Block.AesLemmas
import Verif.Block.AesRound
import Verif.Block.AesSpec
import Verif.Block.AesTables
import Verif.Block.Arc2
import Verif.Block.Arc2Tables
import Verif.Block.Base
import Verif.Block.Blowfish
import Verif.Block.BlowfishTables
import Verif.Block.Camellia
import Verif.Block.CamelliaTables
import Verif.Block.Cast5
import Verif.Block.Cast5Tables
import Verif.Block.Cipher
import Verif.Block.Concrete
import Verif.Block.Des
import Verif.Block.DesLemmas
import Verif.Block.DesTables
import Verif.Block.Feistel
import Verif.Block.Idea
import Verif.Block.IdeaLemmas
import Verif.Block.Init
import Verif.Block.Lemmas
import Verif.Block.Props
import Verif.Block.Serpent
import Verif.Block.SerpentLemmas
import Verif.Block.Spec
import Verif.Block.Twofish
import Verif.Block.TwofishTables
import Verif.Aead.Lemmas
import Verif.Aead.Model
import Verif.Aead.Spec
import Verif.Asn1.Lemmas
import Verif.Asn1.Model
import Verif.Asn1.Spec
import Verif.Cipher.AeadLemmas
import Verif.Cipher.AeadSpec
import Verif.Cipher.BlockLemmas
import Verif.Cipher.CStream
import Verif.Cipher.CStreamLemmas
import Verif.Cipher.CcmSession
import Verif.Cipher.CmacLemmas
import Verif.Cipher.EaxSession
import Verif.Cipher.FinalLemmas
import Verif.Cipher.Gcm
import Verif.Cipher.GcmLemmas
import Verif.Cipher.GcmSession
import Verif.Cipher.GhashLemmas
import Verif.Cipher.ModeLemmas
import Verif.Cipher.Modes
import Verif.Cipher.PadLemmas
import Verif.Cipher.RunLemmas
import Verif.Cipher.SerialLemmas
import Verif.Cipher.SessionLemmas
import Verif.Cipher.Spec
import Verif.Cipher.SplitLemmas
import Verif.Cipher.StealLemmas
import Verif.Cipher.StreamSpec
import Verif.Common.Blocks
import Verif.Common.Buffer
import Verif.Common.Calls
import Verif.Common.Proto
import Verif.Drbg.CtrLemmas
import Verif.Drbg.HashLemmas
import Verif.Drbg.HmacLemmas
import Verif.Drbg.Model
import Verif.Drbg.Spec
import Verif.Encoding.Base16
import Verif.Encoding.Base16Lemmas
import Verif.Encoding.Base32
import Verif.Encoding.Base32Lemmas
import Verif.Encoding.Base58
import Verif.Encoding.Base58Lemmas
import Verif.Encoding.Base64
import Verif.Encoding.Base64Lemmas
import Verif.Encoding.Bech32
import Verif.Encoding.Bech32Decode
import Verif.Encoding.Bech32Lemmas
import Verif.Encoding.BechCheck
import Verif.Encoding.BechErrors
import Verif.Encoding.BechSpec
import Verif.Encoding.BechTable
import Verif.Encoding.BitsLemmas
import Verif.Encoding.Cash32Decode
import Verif.Encoding.Cash32Lemmas
import Verif.Encoding.ConvertLemmas
import Verif.Encoding.PolyLemmas
import Verif.Encoding.Spec
import Verif.Encoding.Tables
import Verif.Hash.B2Lemmas
import Verif.Hash.Dispatch
import Verif.Hash.HmacLemmas
import Verif.Hash.KecLemmas
import Verif.Hash.MdLemmas
import Verif.Hash.Model
import Verif.Hash.OldLemmas
import Verif.Hash.PadLemmas
import Verif.Hash.RepLemmas
import Verif.Hash.Spec
import Verif.Hash.Tables
import Verif.Hash.Transform
import Verif.Kdf.Lemmas
import Verif.Kdf.Model
import Verif.Kdf.ScryptLemmas
import Verif.Kdf.Spec
import Verif.Mac.Lemmas
import Verif.Mac.Model
import Verif.Mac.Poly32Lemmas
import Verif.Mac.Poly64Lemmas
import Verif.Mac.PolyLemmas
import Verif.Mac.SipLemmas
import Verif.Mac.Spec
import Verif.Mpi.BitLemmas
import Verif.Mpi.BitSpec
import Verif.Mpi.Compact
import Verif.Mpi.Div
import Verif.Mpi.Div2by1
import Verif.Mpi.DivLemmas
import Verif.Mpi.DivLimb
import Verif.Mpi.Gcd
import Verif.Mpi.GcdLemmas
import Verif.Mpi.GcdMore
import Verif.Mpi.ImportLemmas
import Verif.Mpi.IntEq
import Verif.Mpi.InvertLemmas
import Verif.Mpi.JacobiLemmas
import Verif.Mpi.JacobiSpec
import Verif.Mpi.Limb
import Verif.Mpi.LimbLemmas
import Verif.Mpi.MontLemmas
import Verif.Mpi.Mpn
import Verif.Mpi.MpnBits
import Verif.Mpi.MpnLemmas
import Verif.Mpi.Mpz
import Verif.Mpi.MpzBit
import Verif.Mpi.MpzBitLemmas
import Verif.Mpi.MpzBitMore
import Verif.Mpi.MpzBitOps
import Verif.Mpi.MpzDiv
import Verif.Mpi.MpzLemmas
import Verif.Mpi.MpzMore
import Verif.Mpi.MpzScan
import Verif.Mpi.MpzSpec
import Verif.Mpi.Popcount
import Verif.Mpi.Powm
import Verif.Mpi.PowmLemmas
import Verif.Mpi.Random
import Verif.Mpi.RandomProps
import Verif.Mpi.Root
import Verif.Mpi.RootLemmas
import Verif.Mpi.SecLemmas
import Verif.Mpi.SecPowm
import Verif.Mpi.SieveLemmas
import Verif.Mpi.Spec
import Verif.Mpi.Str
import Verif.Mpi.StrLemmas
import Verif.Mpi.StrMore
import Verif.Mpi.StrOut
import Verif.Mpi.StrSpec
import Verif.Rand.Lemmas
import Verif.Rand.Model
import Verif.Rand.Spec
import Verif.Rsa.EncLemmas
import Verif.Rsa.Example
import Verif.Rsa.ImportLemmas
import Verif.Rsa.KeyLemmas
import Verif.Rsa.MgfLemmas
import Verif.Rsa.Model
import Verif.Rsa.OaepLemmas
import Verif.Rsa.PadLemmas
import Verif.Rsa.PrivLemmas
import Verif.Rsa.Props
import Verif.Rsa.PssLemmas
import Verif.Rsa.Spec
import Verif.Rsa.VeilLemmas
import Verif.Stream.Arc4Lemmas
import Verif.Stream.CoreLemmas
import Verif.Stream.Lemmas
import Verif.Stream.Model
import Verif.Stream.Spec
import Verif.Util.Bio
import Verif.Util.Spec
import Verif.Dsa.Example
import Verif.Dsa.KeyLemmas
import Verif.Dsa.Model
import Verif.Dsa.Props
import Verif.Dsa.SigLemmas
import Verif.Dsa.Spec
import Verif.Ecc.Endo
import Verif.Ecc.JacLemmas
import Verif.Ecc.Point
import Verif.Ecc.PointLemmas
import Verif.Ecc.PointProps
import Verif.Ecc.PointSpec
import Verif.Ecc.Mul
import Verif.Ecc.MulLemmas
import Verif.Ecc.MulProps
import Verif.Ecc.MulSpec
import Verif.Ecc.Recode
import Verif.Ecc.RecodeLemmas
import Verif.Ecc.RecodeProps
import Verif.Ecc.RecodeSpec
import Verif.Ecc.Chain
import Verif.Ecc.Chains
import Verif.Ecc.FieldRoot
import Verif.Ecc.FieldRootLemmas
import Verif.Ecc.FieldRootProps
import Verif.Ecc.Pocklington
import Verif.Ecc.PrimeProps
import Verif.Ecc.Primes
import Verif.Ecc.Scalar
import Verif.Ecc.ScalarDefs
import Verif.Ecc.ScalarLemmas
import Verif.Ecc.ScalarProps
import Verif.Ecc.ScalarSpec
import Verif.Ecc.CurveCert
import Verif.Ecc.CurveDefs
import Verif.Ecc.CurveLemmas
import Verif.Ecc.CurveProps
import Verif.Ecc.Ecdsa
import Verif.Ecc.EcdsaLemmas
import Verif.Ecc.EcdsaSpec
import Verif.Ecc.Encode
import Verif.Ecc.EncodeLemmas
import Verif.Ecc.EncodeProps
import Verif.Ecc.EncodeSpec
import Verif.Ecc.DerLemmas
import Verif.Ecc.EcdsaProps
import Verif.Ecc.BatchLemmas
import Verif.Ecc.BipschnorrLemmas
import Verif.Ecc.Schnorr
import Verif.Ecc.SchnorrKeyProps
import Verif.Ecc.SchnorrLemmas
import Verif.Ecc.SchnorrProps
import Verif.Ecc.SchnorrSpec
import Verif.Ecc.EcdhProps
import Verif.Ecc.EcdhSpec
import Verif.Ecc.ElligatorProps
import Verif.Ecc.Mont
import Verif.Ecc.MontByteLemmas
import Verif.Ecc.MontCert
import Verif.Ecc.MontCurveLemmas
import Verif.Ecc.MontDefs
import Verif.Ecc.MontEcdhLemmas
import Verif.Ecc.MontElligLemmas
import Verif.Ecc.MontHashLemmas
import Verif.Ecc.MontKeyLemmas
import Verif.Ecc.MontLemmas
import Verif.Ecc.MontMulLemmas
import Verif.Ecc.MontSmallLemmas
import Verif.Ecc.MontSpec
import Verif.Ecc.MontUniformLemmas
import Verif.Ecc.EdAlg
import Verif.Ecc.EdCert
import Verif.Ecc.EdCurveLemmas
import Verif.Ecc.EdGroup
import Verif.Ecc.EdLemmas
import Verif.Ecc.EdMulLemmas
import Verif.Ecc.EdMulSpec
import Verif.Ecc.Edwards
import Verif.Ecc.EdwardsDefs
import Verif.Ecc.EdwardsProps
import Verif.Ecc.EdwardsSpec
import Verif.Ecc.EdBatchLemmas
import Verif.Ecc.EdByteLemmas
import Verif.Ecc.Eddsa
import Verif.Ecc.EddsaKeyProps
import Verif.Ecc.EddsaLemmas
import Verif.Ecc.EddsaProps
import Verif.Ecc.EddsaSpec
import Verif.Ecc.EdElligLemmas
import Verif.Ecc.EdElligProps
import Verif.Ecc.EdElligSpec
import Verif.Ecc.EdHashLemmas
import Verif.Hash.StdGost
import Verif.Hash.StdKec
import Verif.Hash.StdLemmas
import Verif.Hash.StdPrimes
import Verif.Hash.StdProps
import Verif.Hash.StdSha
import Verif.Hash.StdSpec
import Verif.Hash.StdUse
import Verif.Hash.StdWhi
import Verif.Ecc.Convert
import Verif.Ecc.ConvertImportLemmas
import Verif.Ecc.ConvertKeyLemmas
import Verif.Ecc.ConvertLemmas
import Verif.Ecc.ConvertProps
import Verif.Ecc.ConvertSpec
import Verif.Ecc.Ristretto
import Verif.Ecc.RistrettoAlg
import Verif.Ecc.RistrettoKeyLemmas
import Verif.Ecc.RistrettoKeyProps
import Verif.Ecc.RistrettoLemmas
import Verif.Ecc.RistrettoProps
import Verif.Ecc.RistrettoPubLemmas
import Verif.Ecc.RistrettoSpec
import Verif.Ecc.RistElligLemmas
import Verif.Ecc.RistElligProps
import Verif.Ecc.RistElligSpec
import Verif.Ecc.RistInvLemmas
import Verif.Ecc.RistUniformLemmas
import Verif.Ecc.WeiHash
import Verif.Ecc.WeiHashLemmas
import Verif.Ecc.WeiHashProps
import Verif.Ecc.WeiHashSpec
import Verif.Ecc.WeiMapLemmas
import Verif.Ecc.WeiSvdwLemmas
import Verif.Mpi.Number
import Verif.Mpi.NumberLemmas
import Verif.Mpi.NumberProps
import Verif.Mpi.NumberSpec
import Verif.Mpi.RemoveLemmas
import Verif.Mpi.SqrtMod
import Verif.Mpi.SqrtModLemmas
import Verif.Mpi.SqrtModProps
import Verif.Mpi.Prime
import Verif.Mpi.PrimeLiars
import Verif.Mpi.PrimeLucas
import Verif.Mpi.PrimeMR
import Verif.Mpi.PrimeProps
import Verif.Mpi.PrimeSearch
import Verif.Mpi.PrimeSearchProps
import Verif.Mpi.PrimeSpec
import Verif.Mpi.PrimeTrial
import Verif.Dsa.Generate
import Verif.Dsa.GenerateLemmas
import Verif.Dsa.GenerateProps
import Verif.Rsa.Generate
import Verif.Rsa.GenerateLemmas
import Verif.Rsa.GenerateProps
import Verif.Block.BlowfishLemmas
import Verif.Block.BlowfishPi
import Verif.Block.BlowfishProps
import Verif.Block.BlowfishSpec
import Verif.Kdf.Bcrypt
import Verif.Kdf.BcryptLemmas
import Verif.Kdf.BcryptPbkdf
import Verif.Kdf.BcryptPbkdfProps
import Verif.Kdf.BcryptProps
import Verif.Kdf.BcryptRecord
import Verif.Kdf.BcryptSpec
import Verif.Ecc.Fiat.Check
import Verif.Ecc.Fiat.Field
import Verif.Ecc.Fiat.FieldCheck
import Verif.Ecc.Fiat.FieldLemmas
import Verif.Ecc.Fiat.FieldOps
import Verif.Ecc.Fiat.Lang
import Verif.Ecc.Fiat.P192
import Verif.Ecc.Fiat.P251
import Verif.Ecc.Fiat.P25519
import Verif.Ecc.Fiat.P448
import Verif.Ecc.Fiat.P521
import Verif.Ecc.Fiat.Poly
import Verif.Ecc.Fiat.Props
import Verif.Ecc.Fiat.Secp256k1
import Verif.Ecc.Fiat.Sound
import Verif.Ecc.Fiat.Spec
import Verif.Ecc.Fiat.Code
import Verif.Ecc.Fiat.CodeSound
import Verif.Ecc.Fiat.CodeSpec
import Verif.Ecc.Fiat.Formula
import Verif.Ecc.Fiat.FormulaLemmas
import Verif.Ecc.Fiat.FormulaProps
import Verif.Ecc.Fiat.FormulaRun
import Verif.Ecc.Fiat.FormulaSpec
import Verif.Ecc.Grind
import Verif.Ecc.GrindLemmas
import Verif.Ecc.GrindProps
import Verif.Ecc.GrindSpec
import Verif.Util.Murmur
import Verif.Util.MurmurProps
import Verif.Util.MurmurSpec
import Verif.Mpi.GcdExt
import Verif.Mpi.GcdExtProps
import Verif.Ecc.RistBatch
import Verif.Ecc.RistBatchLemmas
import Verif.Ecc.RistBatchProps
import Verif.Ecc.Fiat.FieldCheckW32
import Verif.Ecc.Fiat.FieldLemmasW32
import Verif.Ecc.Fiat.FieldW32
import Verif.Ecc.Fiat.P192W32
import Verif.Ecc.Fiat.P251W32
import Verif.Ecc.Fiat.P25519W32
import Verif.Ecc.Fiat.PropsW32
import Verif.Ecc.Fiat.Secp256k1W32
import Verif.Ecc.Fiat.SpecW32
import Verif.Ecc.Fiat.BytesB32
import Verif.Ecc.Fiat.BytesLemmasW32
import Verif.Ecc.Fiat.CheckB32
import Verif.Ecc.Fiat.LangB32
import Verif.Ecc.Fiat.PropsBytesW32
import Verif.Ecc.Fiat.SoundB32
import Verif.Cipher.PadSwitchProps
import Verif.Ecc.Fiat.CodeSoundW32
import Verif.Ecc.Fiat.CodeW32
import Verif.Ecc.Fiat.FormulaLemmasW32
import Verif.Ecc.Fiat.FormulaPropsW32
import Verif.Ecc.Fiat.FormulaSpecW32
