import Verif.Py.Basic
import Verif.Py.DictLemmas
import Verif.Py.Utf8Lemmas
import Verif.Wrap.Wrappers
import Verif.Keyset.WireLemmas
import Verif.Keyset.Builder
import Verif.Spec.Keyset
import Verif.Keyset.HandleLemmas
import Verif.Wrap.Lemmas
import Verif.Props.Aead
import Verif.Props.Builder
import Verif.Props.BuilderTemplates
import Verif.Props.Registry
import Verif.Props.Handle
import Verif.Props.KeysetIO
import Verif.Props.Misbehaving
import Verif.Props.Rotation
import Verif.Props.PrimitiveSet
import Verif.Props.Deterministic
import Verif.Props.Hybrid
import Verif.Props.MacSignature
import Verif.Core.PrimitiveSetLemmas
import Verif.Py.Base64Lemmas
import Verif.Proto.GenLemmas
import Verif.Kms.Aws
import Verif.Kms.Gcp
import Verif.Kms.Vault
import Verif.Kms.KeyManagers
import Verif.Props.Envelope
import Verif.Props.KmsClients
import Verif.Props.KmsKeys
import Verif.Props.BigInt
import Verif.Props.Templates
import Verif.Props.TemplateCreators
import Verif.Props.Rewindable
import Verif.Props.StreamingAead
import Verif.Props.StreamingKeyset
import Verif.Props.CppInput
import Verif.Props.RawDecrypting
import Verif.Props.CppOutput
import Verif.Props.RawEncrypting
import Verif.Props.SegmentsEncrypt
import Verif.Props.SegmentsDecrypt
import Verif.Props.Segments
import Verif.Props.CcStreaming
import Verif.Props.SegmentCrypters
import Verif.Props.StreamingKeysExamples
import Verif.Props.Json
import Verif.Props.JwtFormat
import Verif.Props.RawJwt
import Verif.Props.JwtJson
import Verif.Props.Validator
import Verif.Props.JwtKeyset
import Verif.Props.JwtRegister
import Verif.Props.JwtVerify
import Verif.Props.JwtRoundTrip
import Verif.Props.JwkSet
import Verif.Json.Indent
import Verif.Json.Hooks
import Verif.Json.Digits
import Verif.Keyset.JsonFormat
import Verif.Keyset.JsonFormatLemmas
import Verif.Props.KeysetJson
import Verif.Core.CcKeyManager
import Verif.Config.Register
import Verif.Spec.Config
import Verif.Examples.ToyConfig
import Verif.Props.CcKeyManager
import Verif.Props.ConfigLemmas
import Verif.Props.Config
import Verif.Props.EndToEnd
import Verif.Core.KeyTypeManager
import Verif.Stream.StreamingKeyManagers
import Verif.Spec.StreamingKeys
import Verif.Examples.ToyStreamingConfig
import Verif.Props.StreamingKeyManagers
import Verif.Props.StreamingEndToEnd
import Verif.Spec.Buffered
import Verif.Stream.BufferedLemmas
import Verif.Examples.ToyBuffered
import Verif.Props.Buffered
import Verif.Props.BufferedExamples
import Verif.Stream.Closing
import Verif.Spec.Closing
import Verif.Stream.ClosingLemmas
import Verif.Props.Closing
import Verif.Props.ClosingExamples
import Verif.Props.FailingExamples
import Verif.Spec.KeysetFormat
import Verif.Json.HookAgree
import Verif.Keyset.FormatLemmas
import Verif.Keyset.FormatReadLemmas
import Verif.Keyset.FormatWireLemmas
import Verif.Props.KeysetFormat
import Verif.Spec.KeyFormats
import Verif.Props.KeyFormats
import Verif.Jwt.Verified
import Verif.Spec.VerifiedJwt
import Verif.Props.VerifiedJwt
import Verif.Heap.Objects
import Verif.Heap.Jwt
import Verif.Spec.Same
import Verif.Spec.Aliasing
import Verif.Heap.Lemmas
import Verif.Heap.Separation
import Verif.Heap.Refine
import Verif.Props.Aliasing
import Verif.Heap.Keyset
import Verif.Spec.Handles
import Verif.Props.Handles
import Verif.Spec.Termination
import Verif.Stream.TerminationLemmas
import Verif.Stream.TerminationWrapper
import Verif.Props.Termination
import Verif.Props.TerminationExamples
import Verif.Spec.Writing
import Verif.Stream.WritingLemmas
import Verif.Stream.WritingSuccess
import Verif.Stream.WritingLimits
import Verif.Props.Writing
import Verif.Props.WritingExamples
import Verif.Spec.JsonGrammar
import Verif.Json.Grammar
import Verif.Spec.TokenText
import Verif.Jwt.TokenText
import Verif.Props.JsonGrammar
import Verif.Props.TokenFormat
import Verif.Spec.Interrupted
import Verif.Stream.InterruptedLemmas
import Verif.Props.Interrupted
import Verif.Props.InterruptedExamples
import Verif.Cli.Os
import Verif.Cli.Programs
import Verif.Spec.Cli
import Verif.Cli.Lemmas
import Verif.Cli.Steps
import Verif.Props.Cli
import Verif.Props.CliRoundTrip
import Verif.Props.CliExamples
import Verif.Cli.Jwt
import Verif.Spec.CliJwt
import Verif.Cli.JwtLemmas
import Verif.Props.CliJwt
import Verif.Jwt.OrderLemmas
import Verif.Jwt.FreshLemmas
import Verif.Props.TokenOrder
import Verif.Props.JwkVerify
import Verif.Cli.Streaming
import Verif.Spec.CliStreaming
import Verif.Cli.StreamingLemmas
import Verif.Cli.StreamingRuns
import Verif.Props.CliStreaming
import Verif.Examples.ToyFileConfig
import Verif.Props.CliStreamingExamples
import Verif.Kms.Fake
import Verif.Cli.Walkthrough
import Verif.Spec.Walkthrough
import Verif.Props.Walkthrough
import Verif.Props.WalkthroughExamples
import Verif.Cc.Ssl
import Verif.Cc.AesSiv
import Verif.Cc.AesEax
import Verif.Spec.BlockModes
import Verif.Spec.SymmetricKeys
import Verif.Spec.Hkdf
import Verif.Cc.BlockLemmas
import Verif.Cc.CmacLemmas
import Verif.Cc.Subtle
import Verif.Cc.Prf
import Verif.Cc.KeyManagers
import Verif.Cc.PrimitiveLemmas
import Verif.Cc.KeyLemmas
import Verif.Cc.Descriptions
import Verif.Cc.Manages
import Verif.Cc.SizeLemmas
import Verif.Examples.ToySsl
import Verif.Props.SymmetricKeys
import Verif.Spec.SymmetricKeysets
import Verif.Cc.KeysetLemmas
import Verif.Props.SymmetricKeysets
import Verif.Cc.TemplateLemmas
import Verif.Examples.ToySymmetricConfig
import Verif.Props.SymmetricTemplates
import Verif.Cc.JwtHmac
import Verif.Spec.JwtMacKeys
import Verif.Cc.JwtHmacLemmas
import Verif.Jwt.MacKeyLemmas
import Verif.Props.JwtMacKeys
import Verif.Proto.GenSignature
import Verif.Proto.GenSignatureLemmas
import Verif.Core.PrivateKeyManager
import Verif.Cc.SigSsl
import Verif.Cc.Signatures
import Verif.Cc.SigKeyManagers
import Verif.Spec.SignatureKeys
import Verif.Cc.SigLemmas
import Verif.Cc.SigDescriptions
import Verif.Cc.SigManages
import Verif.Cc.SigNewLemmas
import Verif.Examples.ToySigSsl
import Verif.Props.SignatureKeys
import Verif.Spec.SignatureKeysets
import Verif.Props.SignatureKeysets
import Verif.Examples.ToySignatureConfig
import Verif.Props.SignatureTemplates
import Verif.Cc.JwtSignatures
import Verif.Cc.JwtSigDescriptions
import Verif.Cc.JwtSigManages
import Verif.Spec.JwtSignatureKeys
import Verif.Jwt.SigKeyLemmas
import Verif.Props.JwtSignatureKeys
import Verif.Props.JwtSignatureTemplates
import Verif.Proto.GenHybrid
import Verif.Proto.GenHybridLemmas
import Verif.Cc.HybridSsl
import Verif.Cc.Hybrid
import Verif.Cc.HybridKeyManagers
import Verif.Spec.HybridKeys
import Verif.Cc.HybridLemmas
import Verif.Cc.HybridKemLemmas
import Verif.Cc.HybridDescriptions
import Verif.Cc.HybridManages
import Verif.Cc.HybridNewLemmas
import Verif.Examples.ToyHybSsl
import Verif.Props.HybridKeys
import Verif.Spec.HybridKeysets
import Verif.Props.HybridKeysets
import Verif.Examples.ToyHybridConfig
import Verif.Props.HybridTemplates
import Verif.Spec.Curves
import Verif.Cli.Basic
import Verif.Cli.BasicLemmas
import Verif.Examples.ToyCurves
import Verif.Props.BasicExamples
import Verif.Cc.EnvelopeLemmas
import Verif.Props.EnvelopeKeys
import Verif.Testing.Helper
import Verif.Testing.HelperLemmas
import Verif.Props.TestHelpers
import Verif.Kms.Credentials
import Verif.Spec.Credentials
import Verif.Kms.CredentialLemmas
import Verif.Props.KmsCredentials
import Verif.Testing.BytesIO
import Verif.Spec.TestStreams
import Verif.Testing.BytesIOLemmas
import Verif.Props.TestStreams
import Verif.Keyset.Remote
import Verif.Cli.EncryptedKeyset
import Verif.Cli.EncryptedKeysetSteps
import Verif.Spec.EncryptedKeyset
import Verif.Props.CliEncryptedKeyset
import Verif.Props.CliEncryptedKeysetExamples
import Verif.Spec.Rotation
import Verif.Spec.RotationWorks
import Verif.Spec.RotationJwt
import Verif.Props.RotationHistory
import Verif.Props.RotationKeysets
import Verif.Props.RotationJwt
import Verif.Props.RotationWorks
import Verif.Props.RotationJwtWorks
import Verif.Props.RotationExamples
import Verif.Props.RotationJwtExamples
import Verif.Spec.RotationStreaming
import Verif.Props.RotationStreaming
import Verif.Props.RotationStreamingExamples
import Verif.Setup.Text
import Verif.Setup.Setup
import Verif.Setup.Lemmas
import Verif.Spec.Setup
import Verif.Props.Setup
import Verif.Props.SetupFiles
import Verif.Props.SetupExamples
import Verif.Props.JwkRotation
import Verif.Props.JwkRotationExamples
import Verif.Spec.StreamingForeign
import Verif.Examples.ToyKeyed
import Verif.Props.StreamingForeign
import Verif.Props.StreamingForeignExamples
import Verif.Props.RegistryThreads
import Verif.Props.RegistryThreadsFailed
import Verif.Props.RegistryThreadsExamples
import Verif.Props.ClientThreads
import Verif.Props.ThreadsEnd
import Verif.Props.SetupThreads
import Verif.Props.SetupThreadsJwt
