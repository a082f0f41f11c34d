import Verif.Basic
import Verif.Model.Amd64
import Verif.Model.Arm64
import Verif.Model.Asm
import Verif.Model.Block
import Verif.Model.Build
import Verif.Model.CApi
import Verif.Model.CDvTable
import Verif.Model.CLoops
import Verif.Model.CSha1
import Verif.Model.CSteps
import Verif.Model.CUbc
import Verif.Model.Cgo
import Verif.Model.CgoDefault
import Verif.Model.CgoMemory
import Verif.Model.Conc
import Verif.Model.Const
import Verif.Model.Cpp
import Verif.Model.Digest
import Verif.Model.DvInfo
import Verif.Model.DvTable
import Verif.Model.Flat
import Verif.Model.Loops
import Verif.Model.Memory
import Verif.Model.Par
import Verif.Model.Sync
import Verif.Model.Target
import Verif.Model.Ubc
import Verif.Proofs.Amd64
import Verif.Proofs.Amd64Block
import Verif.Proofs.Amd64Run
import Verif.Proofs.AnyTable
import Verif.Proofs.Arm64
import Verif.Proofs.Arm64Block
import Verif.Proofs.Arm64Run
import Verif.Proofs.AsmMem
import Verif.Proofs.AsmText
import Verif.Proofs.Bits
import Verif.Proofs.BlockSpec
import Verif.Proofs.CAmd64
import Verif.Proofs.CArm64
import Verif.Proofs.CCalls
import Verif.Proofs.CDecls1
import Verif.Proofs.CDecls2
import Verif.Proofs.CDecls3
import Verif.Proofs.CDetect
import Verif.Proofs.CEvery
import Verif.Proofs.CFinal
import Verif.Proofs.CForced
import Verif.Proofs.CLeaf
import Verif.Proofs.CLexed
import Verif.Proofs.CLibrary
import Verif.Proofs.CLoops
import Verif.Proofs.CMacros
import Verif.Proofs.CObject
import Verif.Proofs.CParts
import Verif.Proofs.CProc
import Verif.Proofs.CProcess
import Verif.Proofs.CPure
import Verif.Proofs.CRead
import Verif.Proofs.CRounds
import Verif.Proofs.CS390x
import Verif.Proofs.CShown
import Verif.Proofs.CSponge
import Verif.Proofs.CStep
import Verif.Proofs.CTable
import Verif.Proofs.CTextStates
import Verif.Proofs.CTextUbc
import Verif.Proofs.CTextW
import Verif.Proofs.CUpdate
import Verif.Proofs.CWork
import Verif.Proofs.CgoMemory
import Verif.Proofs.CgoSystem
import Verif.Proofs.Chain
import Verif.Proofs.Check
import Verif.Proofs.Codec
import Verif.Proofs.Conc
import Verif.Proofs.Diff
import Verif.Proofs.DvCheck
import Verif.Proofs.DwData
import Verif.Proofs.Eval
import Verif.Proofs.Final
import Verif.Proofs.FlatAmd64
import Verif.Proofs.FlatArm64
import Verif.Proofs.FlatCall
import Verif.Proofs.FlatMem
import Verif.Proofs.GoAppend
import Verif.Proofs.GoBlock
import Verif.Proofs.GoBuilds
import Verif.Proofs.GoCheck
import Verif.Proofs.GoClient
import Verif.Proofs.GoCollide
import Verif.Proofs.GoDesk
import Verif.Proofs.GoDigest
import Verif.Proofs.GoEval
import Verif.Proofs.GoLoops
import Verif.Proofs.GoMarshal
import Verif.Proofs.GoNoasm
import Verif.Proofs.GoObject
import Verif.Proofs.GoPure
import Verif.Proofs.GoRead
import Verif.Proofs.GoReadMain
import Verif.Proofs.GoRectify
import Verif.Proofs.GoRounds
import Verif.Proofs.GoSimd
import Verif.Proofs.GoStore
import Verif.Proofs.GoSum
import Verif.Proofs.GoSums
import Verif.Proofs.GoTable
import Verif.Proofs.GoUbc
import Verif.Proofs.GoUnmarshal
import Verif.Proofs.GoWrite
import Verif.Proofs.GoldenData
import Verif.Proofs.Loop
import Verif.Proofs.Loops
import Verif.Proofs.Memory
import Verif.Proofs.Object
import Verif.Proofs.Pair
import Verif.Proofs.Par
import Verif.Proofs.Path
import Verif.Proofs.PathData
import Verif.Proofs.PathEval
import Verif.Proofs.PathSample
import Verif.Proofs.PathStep
import Verif.Proofs.PathWord
import Verif.Proofs.Recompress
import Verif.Proofs.Rounds
import Verif.Proofs.Shambles
import Verif.Proofs.ShamblesData
import Verif.Proofs.ShatteredData
import Verif.Proofs.Sim
import Verif.Proofs.Simd
import Verif.Proofs.Sponge
import Verif.Proofs.Steps
import Verif.Proofs.Sync
import Verif.Proofs.System
import Verif.Proofs.UbcCount
import Verif.Proofs.UbcData
import Verif.Proofs.UbcLemmas
import Verif.Proofs.UbcMask
import Verif.Proofs.UbcStmts
import Verif.Proofs.Witness
import Verif.Proofs.Work
import Verif.Props.AnyTable
import Verif.Props.Arch
import Verif.Props.CCompilers
import Verif.Props.CLoops
import Verif.Props.CSource
import Verif.Props.CWork
import Verif.Props.Cgo
import Verif.Props.CgoDefault
import Verif.Props.CgoMemory
import Verif.Props.Codec
import Verif.Props.Conc
import Verif.Props.Cpp
import Verif.Props.Detect
import Verif.Props.Extension
import Verif.Props.Faults
import Verif.Props.Files
import Verif.Props.Flat
import Verif.Props.GoBuilds
import Verif.Props.GoDesk
import Verif.Props.GoSource
import Verif.Props.GoStops
import Verif.Props.Golden
import Verif.Props.Held
import Verif.Props.Hmac
import Verif.Props.Loops
import Verif.Props.Memory
import Verif.Props.NewKind
import Verif.Props.Options
import Verif.Props.Par
import Verif.Props.Path
import Verif.Props.PathShambles
import Verif.Props.Published
import Verif.Props.Reduction
import Verif.Props.Share
import Verif.Props.Shown
import Verif.Props.Source
import Verif.Props.Stream
import Verif.Props.Sync
import Verif.Props.Target
import Verif.Props.Work
import Verif.Source.AsmRead
import Verif.Source.AsmRun
import Verif.Source.AsmText
import Verif.Source.CClient
import Verif.Source.CEvaluated
import Verif.Source.CLex
import Verif.Source.CParse
import Verif.Source.CProgram
import Verif.Source.CText
import Verif.Source.Chars
import Verif.Source.Evaluated
import Verif.Source.GoAsm
import Verif.Source.GoClient
import Verif.Source.GoLex
import Verif.Source.GoParse
import Verif.Source.GoProgram
import Verif.Source.GoSem
import Verif.Source.GoSyntax
import Verif.Source.GoText
import Verif.Spec.CWork
import Verif.Spec.CgoDefault
import Verif.Spec.CgoSystem
import Verif.Spec.Collision
import Verif.Spec.Conc
import Verif.Spec.Desk
import Verif.Spec.Detect
import Verif.Spec.Held
import Verif.Spec.Hmac
import Verif.Spec.Object
import Verif.Spec.Options
import Verif.Spec.Par
import Verif.Spec.Path
import Verif.Spec.Sha1
import Verif.Spec.Shown
import Verif.Spec.Sync
import Verif.Spec.System
import Verif.Spec.Ubc
import Verif.Spec.Work
