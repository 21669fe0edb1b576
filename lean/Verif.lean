import Verif.GL.Props
import Verif.F3G.Props
import Verif.F5G.Props
import Verif.Helper.Log2
import Verif.FFT.Instances
import Verif.FftP.Props
import Verif.Hash.LinearProps
import Verif.Hash.MerkleGLProps
import Verif.Hash.MerkleBNProps
import Verif.Hash.LinearBN
import Verif.Transcript.GLProps
import Verif.Transcript.BNProps
import Verif.Fri.Instances
import Verif.Stark.Zh
import Verif.Stark.H1H2
import Verif.Stark.Open
import Verif.Interp.Props
import Verif.Interp.ParProps
import Verif.Codegen.Traverse
import Verif.Codegen.Props
import Verif.StarkInfo.MapSection
import Verif.Plonk.R1cs
import Verif.Plonk.Exec
import Verif.Plonk.Compressor
import Verif.Io.R1csProps
import Verif.Io.Pols
import Verif.Io.Zkin
import Verif.Io.PilNumber
import Verif.Io.ProofJsonProps
import Verif.Plonk.Circuit
import Verif.StarkInfo.ImPolsTotal
import Verif.Stark.Script
import Verif.Stark.FriExpr
import Verif.Stark.ProverSat
import Verif.Grand.Example
import Verif.Poseidon.Model
import Verif.Poseidon.Equiv
import Verif.Poseidon.Check
import Verif.Poseidon.CheckSound
import Verif.Poseidon.Bij
import Verif.Poseidon.Primes
import Verif.Poseidon.Hash
import Verif.Poseidon.GlConst
import Verif.Poseidon.Gl
import Verif.Poseidon.Bn128T2
import Verif.Poseidon.Bn128T3
import Verif.Poseidon.Bn128T4
import Verif.Poseidon.Bn128T5
import Verif.Poseidon.Bn128T6
import Verif.Poseidon.Bn128T7
import Verif.Poseidon.Bn128T8
import Verif.Poseidon.Bn128T9
import Verif.Poseidon.Bn128T10
import Verif.Poseidon.Bn128T11
import Verif.Poseidon.Bn128T12
import Verif.Poseidon.Bn128T13
import Verif.Poseidon.Bn128T14
import Verif.Poseidon.Bn128T15
import Verif.Poseidon.Bn128T16
import Verif.Poseidon.Bn128T17
import Verif.Poseidon.Bn128
import Verif.Poseidon.BlsT2
import Verif.Poseidon.BlsT3
import Verif.Poseidon.BlsT4
import Verif.Poseidon.BlsT5
import Verif.Poseidon.BlsT6
import Verif.Poseidon.BlsT7
import Verif.Poseidon.BlsT8
import Verif.Poseidon.BlsT9
import Verif.Poseidon.BlsT10
import Verif.Poseidon.BlsT11
import Verif.Poseidon.BlsT12
import Verif.Poseidon.BlsT13
import Verif.Poseidon.BlsT14
import Verif.Poseidon.BlsT15
import Verif.Poseidon.BlsT16
import Verif.Poseidon.BlsT17
import Verif.Poseidon.BlsOld
import Verif.Poseidon.Bls
import Verif.Grand.Scoped
import Verif.Grand.ScopedGen
import Verif.Grand.Columns
import Verif.Grand.ColumnsVal
import Verif.Grand.ColumnsSat
import Verif.Grand.ColumnsProps
import Verif.Grand.ColumnsExist
import Verif.Grand.ColumnsTotal
import Verif.Grand.ColumnsProver
import Verif.Grand.Generated
import Verif.Grand.ColumnsExample
import Verif.Simd.Intrinsics
import Verif.Simd.Field
import Verif.Simd.FieldLanes
import Verif.Simd.FieldProps
import Verif.Simd.PosConst
import Verif.Simd.Poseidon
import Verif.Simd.PoseidonSim
import Verif.Simd.PoseidonTbl
import Verif.Simd.PoseidonProps
import Verif.Simd.Linear
import Verif.Simd.LinearProps
import Verif.Simd.Merkle
import Verif.Simd.MerkleProps
import Verif.Map.Model
import Verif.Map.Layout
import Verif.Map.Build
import Verif.Map.Positions
import Verif.Map.Temps
import Verif.Map.Dims
import Verif.Map.Circuit
import Verif.Map.Example
import Verif.Map.Fix
import Verif.Map.Sim
import Verif.Map.Blocks
import Verif.Map.Program
import Verif.Map.Rows
import Verif.Map.RowsExample
import Verif.Map.Place
import Verif.Map.Gen
import Verif.Map.GenExample
import Verif.Interp.ParChunks
import Verif.Map.ParRows
import Verif.Map.ParExample
import Verif.Stage.PolProps
import Verif.Stage.Facts
import Verif.Stage.Shift
import Verif.Stage.Inv
import Verif.Stage.Run
import Verif.Stage.Steps
import Verif.Stage.Folds
import Verif.Stage.Rounds
import Verif.Stage.RoundsExample
import Verif.Stage.ExtSim
import Verif.Stage.ExtRows
import Verif.Stage.ExtProg
import Verif.Stage.ExtCode
import Verif.Stage.Ext
import Verif.Stage.ExtExample
import Verif.Stage.ExtMap
import Verif.Stage.Cover
import Verif.Stage.FullModel
import Verif.Stage.Frames
import Verif.Stage.FullLemmas
import Verif.Stage.FullRounds
import Verif.Stage.FullSteps
import Verif.Stage.FullOpen
import Verif.Stage.FullGen
import Verif.Stage.FullAccept
import Verif.Stage.FullExample
import Verif.Stage.Publics
import Verif.Stage.PublicsGen
import Verif.Stage.PublicsExample
import Verif.Circom.Code
import Verif.Circom.CodeProps
import Verif.Circom.Ssa
import Verif.Circom.Transcript
import Verif.Circom.TranscriptProps
import Verif.Circom.Evals
import Verif.Circom.Query
import Verif.Circom.Example
import Verif.Circom.Verifier
import Verif.Circom.VerifierTr
import Verif.Circom.VerifierLemmas
import Verif.Circom.VerifierSteps
import Verif.Circom.VerifierMain
import Verif.Gadget.GL
import Verif.Gadget.GLComplete
import Verif.Gadget.Bits
import Verif.Gadget.Poly
import Verif.Gadget.Poseidon
import Verif.Gadget.Linear
import Verif.Gadget.Merkle
import Verif.Gadget.OnTranscript
import Verif.Gadget.OnTranscriptSim
import Verif.Gadget.OnTranscriptProps
import Verif.Gadget.OnTranscriptMain
import Verif.Gadget.OnCode
import Verif.Gadget.OnCodeProps
import Verif.Gadget.OnCodeMain
import Verif.Gadget.OnEvals
import Verif.Gadget.OnQuery
import Verif.Gadget.OnFri
import Verif.Gadget.OnVerifier
import Verif.Gadget.OnChain
import Verif.Gadget.OnNative
import Verif.Gadget.OnNativeVerify
import Verif.Io.Groth16Json
import Verif.Io.WitnessDriver
import Verif.Gadget.OnMain
import Verif.Pil.Export
import Verif.Pil.Lines
import Verif.Pil.Names
import Verif.Io.Solidity
import Verif.Io.SolTemplate
