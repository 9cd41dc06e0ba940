import Verif.Base.Array
import Verif.Base.Bytes
import Verif.Base.Linear
import Verif.Base.LoadStore
import Verif.Base.Loop
import Verif.Base.Mem
import Verif.Base.Reg
import Verif.Base.RegComm
import Verif.Base.Res
import Verif.Base.Spn
import Verif.Base.Win
import Verif.Gen.Rot
import Verif.Gen.Tab.BlockAnubis
import Verif.Gen.Tab.BlockAria
import Verif.Gen.Tab.BlockBlowfish
import Verif.Gen.Tab.BlockCamellia
import Verif.Gen.Tab.BlockCast5
import Verif.Gen.Tab.BlockCrax_s
import Verif.Gen.Tab.BlockDes
import Verif.Gen.Tab.BlockKhazad
import Verif.Gen.Tab.BlockLea
import Verif.Gen.Tab.BlockNoekeon
import Verif.Gen.Tab.BlockRc2
import Verif.Gen.Tab.BlockRectangle
import Verif.Gen.Tab.BlockRijndael
import Verif.Gen.Tab.BlockSafer
import Verif.Gen.Tab.BlockSaferpp
import Verif.Gen.Tab.BlockSeed
import Verif.Gen.Tab.BlockShacal2
import Verif.Gen.Tab.BlockSkipjack
import Verif.Gen.Tab.BlockSm4
import Verif.Gen.Tab.BlockT3way
import Verif.Gen.Tab.BlockTrax_l
import Verif.Gen.Tab.BlockTrax_m
import Verif.Gen.Tab.BlockTwofish
import Verif.Gen.Tab.HashBlake256
import Verif.Gen.Tab.HashBlake2b
import Verif.Gen.Tab.HashBlake2s
import Verif.Gen.Tab.HashBlake512
import Verif.Gen.Tab.HashKeccak1600
import Verif.Gen.Tab.HashKeccak800
import Verif.Gen.Tab.HashMd5
import Verif.Gen.Tab.HashSha2_256
import Verif.Gen.Tab.HashSha2_512
import Verif.Gen.Tab.HashTiger
import Verif.Gen.Tab.HashWhirlpool
import Verif.Gen.Tab.MacOmac
import Verif.Gen.Threefish
import Verif.Model.Ae
import Verif.Model.Block
import Verif.Model.Block.Anubis
import Verif.Model.Block.Aria
import Verif.Model.Block.Blowfish
import Verif.Model.Block.Camellia
import Verif.Model.Block.Cast5
import Verif.Model.Block.CraxS
import Verif.Model.Block.Des
import Verif.Model.Block.Gost
import Verif.Model.Block.Idea
import Verif.Model.Block.Khazad
import Verif.Model.Block.Lea
import Verif.Model.Block.Noekeon
import Verif.Model.Block.Portable
import Verif.Model.Block.Rc2
import Verif.Model.Block.Rc5
import Verif.Model.Block.Rc6
import Verif.Model.Block.Rectangle
import Verif.Model.Block.Rijndael
import Verif.Model.Block.Safer
import Verif.Model.Block.Saferpp
import Verif.Model.Block.Seed
import Verif.Model.Block.Serpent
import Verif.Model.Block.Shacal2
import Verif.Model.Block.Simon
import Verif.Model.Block.Skipjack
import Verif.Model.Block.Sm4
import Verif.Model.Block.Speck
import Verif.Model.Block.Tea
import Verif.Model.Block.Threefish
import Verif.Model.Block.Threeway
import Verif.Model.Block.TraxL
import Verif.Model.Block.TraxM
import Verif.Model.Block.Twofish
import Verif.Model.Block.Xtea
import Verif.Model.Config
import Verif.Model.Frame
import Verif.Model.Hash
import Verif.Model.Hash.Blake
import Verif.Model.Hash.Buf
import Verif.Model.Hash.Keccak
import Verif.Model.Hash.KeccakRound
import Verif.Model.Hash.Md
import Verif.Model.Hash.Md5
import Verif.Model.Hash.Sha1
import Verif.Model.Hash.Sha2
import Verif.Model.Hash.Tiger
import Verif.Model.Hash.Whirlpool
import Verif.Model.Kdf
import Verif.Model.Life.Block
import Verif.Model.Life.Heap
import Verif.Model.Life.Mac
import Verif.Model.Life.Stream
import Verif.Model.Mac
import Verif.Model.Memory
import Verif.Model.Ndebug
import Verif.Model.Overlap
import Verif.Model.Random
import Verif.Model.RandomUnix
import Verif.Model.Skein
import Verif.Model.Stream
import Verif.Model.Stream.Chacha
import Verif.Model.Stream.Keccak
import Verif.Model.Stream.Modes
import Verif.Model.Stream.Rc4
import Verif.Model.Stream.Regs
import Verif.Model.Stream.Salsa20
import Verif.Model.Trace
import Verif.Model.TraceAes
import Verif.Model.TraceChacha
import Verif.Model.TraceCipher
import Verif.Model.TraceLea
import Verif.Model.TraceNoekeon
import Verif.Model.TraceRc5
import Verif.Model.TraceSimon
import Verif.Model.TraceSm4
import Verif.Model.TraceTea
import Verif.Model.Tweak
import Verif.Proof.Ae.Core
import Verif.Proof.Ae.Eax
import Verif.Proof.Ae.Eax2
import Verif.Proof.Ae.EaxSpec
import Verif.Proof.Block.AesSpec
import Verif.Proof.Block.AlzetteSpec
import Verif.Proof.Block.Anubis
import Verif.Proof.Block.AnubisSpec
import Verif.Proof.Block.Api
import Verif.Proof.Block.Aria
import Verif.Proof.Block.AriaSpec
import Verif.Proof.Block.Basic
import Verif.Proof.Block.Blowfish
import Verif.Proof.Block.BlowfishSpec
import Verif.Proof.Block.Camellia
import Verif.Proof.Block.CamelliaSpec
import Verif.Proof.Block.Cast5
import Verif.Proof.Block.Cast5Spec
import Verif.Proof.Block.CraxS
import Verif.Proof.Block.Des
import Verif.Proof.Block.DesSpec
import Verif.Proof.Block.DesSym
import Verif.Proof.Block.EqKeys
import Verif.Proof.Block.Finite
import Verif.Proof.Block.Gost
import Verif.Proof.Block.GostSpec
import Verif.Proof.Block.Grp
import Verif.Proof.Block.Idea
import Verif.Proof.Block.IdeaSpec
import Verif.Proof.Block.KeyWords
import Verif.Proof.Block.KeyWords64
import Verif.Proof.Block.Khazad
import Verif.Proof.Block.KhazadSpec
import Verif.Proof.Block.Lea
import Verif.Proof.Block.LeaSpec
import Verif.Proof.Block.Lib
import Verif.Proof.Block.Lut
import Verif.Proof.Block.Noekeon
import Verif.Proof.Block.NoekeonSpec
import Verif.Proof.Block.Outside
import Verif.Proof.Block.Rc2
import Verif.Proof.Block.Rc2Spec
import Verif.Proof.Block.Rc5
import Verif.Proof.Block.Rc6
import Verif.Proof.Block.RcSpec
import Verif.Proof.Block.Recreate
import Verif.Proof.Block.Rectangle
import Verif.Proof.Block.RectangleSpec
import Verif.Proof.Block.Rijndael
import Verif.Proof.Block.Safer
import Verif.Proof.Block.SaferSpec
import Verif.Proof.Block.Saferpp
import Verif.Proof.Block.SaferppSpec
import Verif.Proof.Block.SameCipher
import Verif.Proof.Block.Seed
import Verif.Proof.Block.SeedSpec
import Verif.Proof.Block.Serpent
import Verif.Proof.Block.SerpentSpec
import Verif.Proof.Block.Shacal2
import Verif.Proof.Block.Shacal2Spec
import Verif.Proof.Block.Simon
import Verif.Proof.Block.SimonSpeckSpec
import Verif.Proof.Block.Skipjack
import Verif.Proof.Block.SkipjackSpec
import Verif.Proof.Block.Sliced
import Verif.Proof.Block.Sm4
import Verif.Proof.Block.Sm4Spec
import Verif.Proof.Block.Span
import Verif.Proof.Block.Speck
import Verif.Proof.Block.Spn
import Verif.Proof.Block.Std
import Verif.Proof.Block.Tea
import Verif.Proof.Block.TeaSpec
import Verif.Proof.Block.Threefish
import Verif.Proof.Block.ThreefishSpec
import Verif.Proof.Block.ThreefishStd
import Verif.Proof.Block.Threeway
import Verif.Proof.Block.ThreewaySpec
import Verif.Proof.Block.TraxL
import Verif.Proof.Block.TraxM
import Verif.Proof.Block.Tweak
import Verif.Proof.Block.Twofish
import Verif.Proof.Block.TwofishSpec
import Verif.Proof.Block.Witness
import Verif.Proof.Block.Xtea
import Verif.Proof.Config
import Verif.Proof.Frame
import Verif.Proof.Gf
import Verif.Proof.Gf1D
import Verif.Proof.GfFast
import Verif.Proof.Hash.Bits
import Verif.Proof.Hash.Blake
import Verif.Proof.Hash.BlakeStd
import Verif.Proof.Hash.Buf
import Verif.Proof.Hash.Keccak
import Verif.Proof.Hash.KeccakApi
import Verif.Proof.Hash.KeccakLib
import Verif.Proof.Hash.KeccakRound
import Verif.Proof.Hash.Lib
import Verif.Proof.Hash.Md
import Verif.Proof.Hash.Md5
import Verif.Proof.Hash.Primes
import Verif.Proof.Hash.Sha1
import Verif.Proof.Hash.Sha2
import Verif.Proof.Hash.Tiger
import Verif.Proof.Hash.Whirlpool
import Verif.Proof.Kdf.Area
import Verif.Proof.Kdf.Length
import Verif.Proof.Kdf.Overlap
import Verif.Proof.Kdf.Pbkdf2
import Verif.Proof.Kdf.Scrypt
import Verif.Proof.Kdf.Smix
import Verif.Proof.Kdf.Witness
import Verif.Proof.Life.Ae
import Verif.Proof.Life.Basic
import Verif.Proof.Life.Law
import Verif.Proof.Life.Lib
import Verif.Proof.Life.Mac
import Verif.Proof.Life.Stream
import Verif.Proof.Mac.Cbc
import Verif.Proof.Mac.Double
import Verif.Proof.Mac.Hmac
import Verif.Proof.Mac.Hmac2
import Verif.Proof.Mac.Lib
import Verif.Proof.Mac.Omac
import Verif.Proof.Mac.Split
import Verif.Proof.Mac.Tag
import Verif.Proof.Mac.Verify
import Verif.Proof.Mac.Xcbc
import Verif.Proof.Memory
import Verif.Proof.Period
import Verif.Proof.PiBounds
import Verif.Proof.PiDigits
import Verif.Proof.Random.Gen
import Verif.Proof.Random.Seed
import Verif.Proof.Random.Test
import Verif.Proof.Skein
import Verif.Proof.SkeinApi
import Verif.Proof.SkeinHash
import Verif.Proof.SkeinKey
import Verif.Proof.SkeinLib
import Verif.Proof.SkeinMac
import Verif.Proof.SkeinObj
import Verif.Proof.SkeinOut
import Verif.Proof.SkeinStd
import Verif.Proof.Steps
import Verif.Proof.Stream.Arx
import Verif.Proof.Stream.Blocks
import Verif.Proof.Stream.Cfb
import Verif.Proof.Stream.CfbDec
import Verif.Proof.Stream.Chacha
import Verif.Proof.Stream.Keccak
import Verif.Proof.Stream.KeccakLaws
import Verif.Proof.Stream.Keystream
import Verif.Proof.Stream.Laws
import Verif.Proof.Stream.Lib
import Verif.Proof.Stream.Ofb
import Verif.Proof.Stream.Rc4
import Verif.Proof.Stream.Rekey
import Verif.Proof.Stream.Salsa20
import Verif.Proof.Words
import Verif.Props.C01
import Verif.Props.C02
import Verif.Props.C03
import Verif.Props.C04
import Verif.Props.C05
import Verif.Props.C06
import Verif.Props.C07
import Verif.Props.C08
import Verif.Props.C09
import Verif.Props.C10
import Verif.Props.C11
import Verif.Props.C12
import Verif.Props.C13
import Verif.Props.C14
import Verif.Props.C15
import Verif.Props.C16
import Verif.Props.C17
import Verif.Props.C18
import Verif.Props.C19
import Verif.Props.C19Other
import Verif.Props.C19Zeros
import Verif.Props.C20
import Verif.Props.C21
import Verif.Props.C22
import Verif.Props.C23
import Verif.Props.C24
import Verif.Props.C25
import Verif.Props.C26
import Verif.Props.C27
import Verif.Props.C28
import Verif.Props.C29
import Verif.Props.C30
import Verif.Props.C31
import Verif.Props.C32
import Verif.Props.C33
import Verif.Props.C34
import Verif.Props.C35
import Verif.Props.C36
import Verif.Props.C37
import Verif.Props.C38
import Verif.Props.C39
import Verif.Props.C40
import Verif.Props.C41
import Verif.Props.C42
import Verif.Props.C43
import Verif.Props.C44
import Verif.Props.C45
import Verif.Props.C46
import Verif.Props.C47
import Verif.Props.C48
import Verif.Props.C49
import Verif.Props.C50
import Verif.Props.C51
import Verif.Props.C52
import Verif.Props.C53
import Verif.Props.C54
import Verif.Props.C55
import Verif.Props.C56
import Verif.Props.C57
import Verif.Props.C58
import Verif.Props.C59
import Verif.Props.C60
import Verif.Props.C61
import Verif.Props.C62
import Verif.Props.C63
import Verif.Props.C64
import Verif.Props.C65
import Verif.Props.C66
import Verif.Props.C67
import Verif.Props.C68
import Verif.Props.C69
import Verif.Props.C70
import Verif.Props.C71
import Verif.Props.C72
import Verif.Props.C73
import Verif.Props.C73Idea
import Verif.Props.C74
import Verif.Props.C75
import Verif.Props.C76
import Verif.Props.C77
import Verif.Props.C78
import Verif.Props.C79
import Verif.Props.C80
import Verif.Props.C81
import Verif.Props.C82
import Verif.Props.C83
import Verif.Props.C84
import Verif.Props.C85
import Verif.Props.C86
import Verif.Props.C87
import Verif.Spec.Ae
import Verif.Spec.Aes
import Verif.Spec.Alzette
import Verif.Spec.Anubis
import Verif.Spec.Aria
import Verif.Spec.Blake
import Verif.Spec.Block
import Verif.Spec.BlockLib
import Verif.Spec.BlockStd
import Verif.Spec.Blowfish
import Verif.Spec.Camellia
import Verif.Spec.Cast5
import Verif.Spec.Cut
import Verif.Spec.Des
import Verif.Spec.Gf
import Verif.Spec.Gf2
import Verif.Spec.Gost
import Verif.Spec.Hash
import Verif.Spec.HashLib
import Verif.Spec.Idea
import Verif.Spec.Kdf
import Verif.Spec.Keccak
import Verif.Spec.Keystream
import Verif.Spec.Khazad
import Verif.Spec.KhazadBox
import Verif.Spec.Lea
import Verif.Spec.Life
import Verif.Spec.Linear
import Verif.Spec.Mac
import Verif.Spec.MacLib
import Verif.Spec.Md
import Verif.Spec.Modes
import Verif.Spec.Noekeon
import Verif.Spec.Num
import Verif.Spec.Overlap
import Verif.Spec.PiWords
import Verif.Spec.Random
import Verif.Spec.Rc
import Verif.Spec.Rc2
import Verif.Spec.Rc4
import Verif.Spec.Rectangle
import Verif.Spec.Rekey
import Verif.Spec.Safer
import Verif.Spec.Salsa20
import Verif.Spec.SameCipher
import Verif.Spec.Seed
import Verif.Spec.Serpent
import Verif.Spec.Sha
import Verif.Spec.Shacal2
import Verif.Spec.SimonSpeck
import Verif.Spec.Skein
import Verif.Spec.SkeinLib
import Verif.Spec.Skipjack
import Verif.Spec.Sliced
import Verif.Spec.Sm4
import Verif.Spec.Steps
import Verif.Spec.Stream
import Verif.Spec.Tea
import Verif.Spec.Threads
import Verif.Spec.Threefish
import Verif.Spec.Threeway
import Verif.Spec.Tiger
import Verif.Spec.Tweak
import Verif.Spec.Twofish
import Verif.Spec.WeakKeys
import Verif.Spec.Whirlpool
import Verif.Spec.Words
import Verif.Spec.Xof
import Verif.Test.Ae
import Verif.Test.Basic
import Verif.Test.Block.Anubis
import Verif.Test.Block.Aria
import Verif.Test.Block.Blowfish
import Verif.Test.Block.Camellia
import Verif.Test.Block.Cast5
import Verif.Test.Block.Crax_s
import Verif.Test.Block.Des
import Verif.Test.Block.Gost
import Verif.Test.Block.Idea
import Verif.Test.Block.Khazad
import Verif.Test.Block.Lea
import Verif.Test.Block.Noekeon
import Verif.Test.Block.Rc2
import Verif.Test.Block.Rc5
import Verif.Test.Block.Rc6
import Verif.Test.Block.Rectangle
import Verif.Test.Block.Rijndael128
import Verif.Test.Block.Rijndael256
import Verif.Test.Block.Safer
import Verif.Test.Block.Saferpp
import Verif.Test.Block.Seed
import Verif.Test.Block.Serpent
import Verif.Test.Block.Shacal2
import Verif.Test.Block.Simon128
import Verif.Test.Block.Simon32
import Verif.Test.Block.Simon64
import Verif.Test.Block.Skipjack
import Verif.Test.Block.Sm4
import Verif.Test.Block.Speck128
import Verif.Test.Block.Speck32
import Verif.Test.Block.Speck64
import Verif.Test.Block.T3way
import Verif.Test.Block.Tea
import Verif.Test.Block.Threefish1024
import Verif.Test.Block.Threefish256
import Verif.Test.Block.Threefish512
import Verif.Test.Block.Trax_l
import Verif.Test.Block.Trax_m
import Verif.Test.Block.Twofish
import Verif.Test.Block.Xtea
import Verif.Test.Hash.Blake
import Verif.Test.Hash.Keccak1600
import Verif.Test.Hash.Keccak800
import Verif.Test.Hash.Md5
import Verif.Test.Hash.Sha1
import Verif.Test.Hash.Sha2_256
import Verif.Test.Hash.Sha2_512
import Verif.Test.Hash.Sha3
import Verif.Test.Hash.Tiger
import Verif.Test.Hash.Whirlpool
import Verif.Test.HashBasic
import Verif.Test.Kdf
import Verif.Test.Mac
import Verif.Test.Stream.Chacha
import Verif.Test.Stream.Salsa20
import Verif.Test.StreamBasic
