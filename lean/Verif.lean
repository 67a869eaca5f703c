import Verif.Base
import Verif.IntTools.Props
import Verif.Padding.Props
import Verif.Options.Props
import Verif.Modes.Props
import Verif.Mac.CmacProps
import Verif.Digest.Sha2Long
import Verif.Digest.Sha2TreeProps
import Verif.Mac.HmacProps
import Verif.Kdf.HkdfProps
import Verif.Kdf.Kdf2Props
import Verif.Kdf.Pbkdf2Props
import Verif.Gcm.GhashProps
import Verif.Gcm.GcmProps
import Verif.Hba.Instances
import Verif.Keccak.PermProps
import Verif.Keccak.Sha3Props
import Verif.Keccak.KmacExamples
import Verif.Keccak.ShakeProps
import Verif.Keccak.ScbProps
import Verif.Keccak.KpaProps
import Verif.Keccak.Sha3TreeProps
import Verif.Keccak.Sha3TreeParams
import Verif.Poly.Props
import Verif.Keys.Props
import Verif.Keys.SecureProps
import Verif.Params.Props
import Verif.Keys.GenProps
import Verif.Streams.Props
import Verif.Streams.HashProps
import Verif.Streams.SecureProps
import Verif.CStream.Props
import Verif.Random.Props
import Verif.Random.Range
import Verif.SCipher.Props
import Verif.SCipher.AuthCases
import Verif.SCipher.SerProps
import Verif.Rijndael.Props
import Verif.Rijndael.Vectors
import Verif.Serpent.Props
import Verif.Lattice.Ntt
import Verif.Kyber.ArithProps
import Verif.Kyber.CodecProps
import Verif.Kyber.SampleExamples
import Verif.Kyber.KemExamples
import Verif.Drbg.CsgExamples
import Verif.Drbg.HcgExamples
import Verif.Drbg.BcgExamples
import Verif.Blake.Examples
import Verif.Blake.TreeExamples
import Verif.Dilithium.ArithProps
import Verif.Dilithium.CodecProps
import Verif.Dilithium.SampleProps
import Verif.Dilithium.SchemeExamples
import Verif.Threefish.Examples
import Verif.Skein.Examples
import Verif.Sphincs.Props
import Verif.Digest.Sha2StaticProps
import Verif.Xmss.Props
import Verif.Ec25519.Props
import Verif.Ed25519.Props
import Verif.Ed25519.ScProps
import Verif.Ed25519.SigProps
import Verif.Pool.Props
import Verif.Factory.Props
import Verif.Factory.NamesProps
import Verif.McEliece.Props
import Verif.McEliece.KemProps
import Verif.McEliece.SyndProps
import Verif.McEliece.BenesModel
import Verif.McEliece.BenesProps
import Verif.McEliece.GoppaModel
import Verif.McEliece.GoppaProps
import Verif.Scalar.Model
import Verif.Scalar.Props
import Verif.Scalar.CounterModel
import Verif.Scalar.CounterProps
import Verif.Scalar.BlockModel
import Verif.Scalar.BlockProps
