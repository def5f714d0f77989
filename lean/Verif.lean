import Verif.Props.Codec
import Verif.Props.Record
import Verif.Props.Key
import Verif.Props.Text
import Verif.Props.Params
import Verif.Props.Cert
import Verif.Props.Cipher
import Verif.Props.ListParse
import Verif.Props.ListPack
import Verif.Props.ListWire
import Verif.Props.ListText
import Verif.Props.Cli
import Verif.Props.Convert
import Verif.Props.ListSucceed
import Verif.Props.Generate
import Verif.Props.Validity
import Verif.Props.Checks
import Verif.Props.ListWarnings
import Verif.Props.Grammar
import Verif.Props.FileGrammar
import Verif.Props.Inject
import Verif.Props.Json
import Verif.Props.UserList
import Verif.Props.Counts
import Verif.Props.Pack
import Verif.Props.PackList
import Verif.Props.Depth
import Verif.Props.OpenSSH
import Verif.Props.OpenSSHWrite
import Verif.Props.OpenSSHPublic
import Verif.Props.OpenSSHPublicWrite
import Verif.Model.Filtered
import Verif.Spec.Filtered
import Verif.Lemmas.Filtered
import Verif.Props.Filtered
import Verif.Spec.Strict
import Verif.Props.Strict
import Verif.Spec.StrictFile
import Verif.Props.StrictFile
import Verif.Spec.Both
import Verif.Props.Both
import Verif.Model.Args
import Verif.Spec.Args
import Verif.Lemmas.Args
import Verif.Props.Args
import Verif.Model.UserDict
import Verif.Spec.UserDict
import Verif.Props.UserDict
import Verif.Model.Store
import Verif.Spec.Store
import Verif.Props.Store
import Verif.Std.Aes
import Verif.Std.Sha512
import Verif.Std.Des
import Verif.Std.Modes
import Verif.Std.ChaCha
import Verif.Std.Bcrypt
import Verif.Std.Crypto
import Verif.Lemmas.StdCrypto
import Verif.Props.StdCrypto
import Verif.Props.StdVectors
import Verif.Lemmas.Pi
import Verif.Props.StdPi
import Verif.Lemmas.BlowfishFast
import Verif.Lemmas.BlowfishPi
import Verif.Lemmas.BcryptTurns1
import Verif.Lemmas.BcryptTurns2
import Verif.Lemmas.BcryptTurns3
import Verif.Lemmas.BcryptTurns4
import Verif.Props.StdBlowfish
import Verif.Model.StructText
import Verif.Spec.StructText
import Verif.Lemmas.StructText
import Verif.Props.StructText
import Verif.Props.Prompt
import Verif.Std.Curves
import Verif.Spec.Curves
import Verif.Lemmas.Prime
import Verif.Lemmas.Curves
import Verif.Props.Curves
import Verif.Props.Change
import Verif.Std.Datetime
import Verif.Std.Ec
import Verif.Std.Ed25519
import Verif.Std.Keys
import Verif.Spec.KeyPairs
import Verif.Lemmas.Ec
import Verif.Lemmas.EcFast
import Verif.Lemmas.EcOrder
import Verif.Lemmas.EcGroup
import Verif.Lemmas.KeyPairs
import Verif.Props.KeyPairs
import Verif.Props.KeyPairsKnown
import Verif.Props.KeyPairsCases
import Verif.Spec.Resources
import Verif.Lemmas.Resources
import Verif.Lemmas.ResourcesList
import Verif.Lemmas.ResourcesText
import Verif.Lemmas.ResourcesWork
import Verif.Props.Resources
import Verif.Spec.Readme
import Verif.Lemmas.KernelRfl
import Verif.Lemmas.ReadmeStream1
import Verif.Lemmas.ReadmeStream2
import Verif.Lemmas.ReadmeDecrypt
import Verif.Lemmas.ReadmeMain
import Verif.Lemmas.ReadmePairs
import Verif.Props.Readme
import Verif.Spec.Datetime
import Verif.Lemmas.Datetime
import Verif.Props.Datetime
import Verif.Spec.Documented
import Verif.Lemmas.Documented
import Verif.Props.Documented
import Verif.Spec.Tamper
import Verif.Props.Tamper
import Verif.Props.Fuzz
import Verif.Props.Passphrase
import Verif.Props.Utils
import Verif.Props.Exact
import Verif.Props.Lines
import Verif.Tests.Stream
import Verif.Tests.Key
import Verif.Tests.List
import Verif.Tests.Pack
import Verif.Tests.PackString
import Verif.Tests.Cipher
import Verif.Tests.Aead
import Verif.Tests.ChaCha
import Verif.Tests.Params
import Verif.Tests.Cert
import Verif.Tests.Utils
import Verif.Tests.Convert
import Verif.Tests.Generate
import Verif.Spec.Clear
import Verif.Lemmas.Clear
import Verif.Props.Clear
import Verif.Spec.Reuse
import Verif.Props.Reuse
import Verif.Spec.Size
import Verif.Props.Size
import Verif.Spec.Once
import Verif.Props.Once
import Verif.Props.Chain
import Verif.Props.ChainPass
import Verif.Props.ChainTamper
