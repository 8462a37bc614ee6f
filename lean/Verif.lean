import Verif.Py.Dict
import Verif.Model.Value
import Verif.Model.Classes
import Verif.Model.History
import Verif.Lemmas.Registry
import Verif.Spec.Registry
import Verif.Lemmas.RegistryInv
import Verif.Props.Registry
import Verif.Lemmas.Objects
import Verif.Lemmas.BasisLemmas
import Verif.Props.Basis
import Verif.Spec.Validate
import Verif.Lemmas.WCLemmas
import Verif.Props.Validate
import Verif.Model.WCOps
import Verif.Props.Numbers
import Verif.Model.IO
import Verif.Spec.Same
import Verif.Lemmas.SerialLemmas
import Verif.Spec.Files
import Verif.Props.Serial
import Verif.Model.Import
import Verif.Lemmas.ImportLemmas
import Verif.Props.Import
import Verif.Model.Eos
import Verif.Spec.Eos
import Verif.Lemmas.EosLemmas
import Verif.Props.Eos
import Verif.Model.Tex
import Verif.Props.Tex
import Verif.Model.Qcd
import Verif.Props.Qcd
import Verif.Model.Cli
import Verif.Model.Streams
import Verif.Lemmas.CliLemmas
import Verif.Props.Cli
import Verif.Props.Streams
import Verif.Model.Symm
import Verif.Spec.Symm
import Verif.Lemmas.SymmLemmas
import Verif.Lemmas.SymmChecks
import Verif.Props.Symm
import Verif.Model.Smeft
import Verif.Spec.Smeft
import Verif.Lemmas.RotLemmas
import Verif.Lemmas.SmeftLemmas
import Verif.Props.Rot
import Verif.Model.SmeftTrans
import Verif.Spec.Flat
import Verif.Lemmas.FlatLemmas
import Verif.Lemmas.SmeftTransLemmas
import Verif.Props.SmeftTrans
import Verif.Model.WetExpr
import Verif.Model.WetArray
import Verif.Model.WetBlocks
import Verif.Model.Wet
import Verif.Spec.Wet
import Verif.Lemmas.WetLemmas
import Verif.Lemmas.WetComp
import Verif.Lemmas.WetJobs
import Verif.Lemmas.WetReads
import Verif.Lemmas.WetBlk
import Verif.Lemmas.WetKeys
import Verif.Lemmas.WetKeysEq
import Verif.Lemmas.WetArrayLemmas
import Verif.Lemmas.WetEosFF
import Verif.Lemmas.WetClosed
import Verif.Lemmas.Marks
import Verif.Lemmas.MarksJms
import Verif.Lemmas.MarksBern
import Verif.Props.WetArray
import Verif.Props.WetLinear
import Verif.Props.Flavour
import Verif.Lemmas.WetRound
import Verif.Props.WetRound
import Verif.Props.WetFormFlavor
import Verif.Props.Running
import Verif.Model.FlavorKitData
import Verif.Model.FlavorKit
import Verif.Spec.FlavorKit
import Verif.Lemmas.FlavorKitData
import Verif.Lemmas.FlavorKit
import Verif.Lemmas.FlavorKitRows
import Verif.Props.FlavorKit
import Verif.Model.Match
import Verif.Spec.Match
import Verif.Lemmas.Match
import Verif.Lemmas.MatchEW
import Verif.Props.Match
import Verif.Lemmas.MatchCkm
import Verif.Lemmas.MatchDown
import Verif.Props.MatchCkm
import Verif.Props.MatchComp
import Verif.Model.Registered
import Verif.Spec.Params
import Verif.Lemmas.Params
import Verif.Props.Params
import Verif.Model.ParHeap
import Verif.Lemmas.ParHeap
import Verif.Props.ParHeap
import Verif.Model.SmeftsimRow
import Verif.Model.SmeftsimSetA
import Verif.Model.SmeftsimSetB
import Verif.Model.Smeftsim
import Verif.Model.SmeftsimCli
import Verif.Spec.Card
import Verif.Spec.Lha
import Verif.Lemmas.SmeftsimCode
import Verif.Lemmas.SmeftsimCertA
import Verif.Lemmas.SmeftsimCertB
import Verif.Lemmas.SmeftsimCheck
import Verif.Lemmas.SmeftsimFill
import Verif.Lemmas.SmeftsimNames
import Verif.Lemmas.SmeftsimFlat
import Verif.Lemmas.SmeftsimName
import Verif.Lemmas.SmeftsimChars
import Verif.Props.Smeftsim
import Verif.Props.SmeftsimSign
import Verif.Props.SmeftsimText
import Verif.Props.SmeftsimCli
import Verif.Model.SimStreams
import Verif.Props.SimStreams
import Verif.Spec.Lagrangian
import Verif.Spec.Flavour
import Verif.Lemmas.Dirac
import Verif.Lemmas.LagTensor
import Verif.Lemmas.LagBern
import Verif.Lemmas.LagSectors
import Verif.Lemmas.LagBlocks
import Verif.Spec.LagFlavio
import Verif.Lemmas.LagGen
import Verif.Lemmas.LagMain
import Verif.Props.Lagrangian
import Verif.Lemmas.LagFlavio
import Verif.Props.LagFlavio
import Verif.Spec.LagFormFlavor
import Verif.Lemmas.LagFormFlavor
import Verif.Props.LagFormFlavor
import Verif.Spec.LagEos
import Verif.Lemmas.LagEos
import Verif.Props.LagEos
import Verif.Spec.MatchLag
import Verif.Lemmas.MatchLag
import Verif.Lemmas.MatchLagRot
import Verif.Lemmas.MatchLagApi
import Verif.Props.MatchLag
import Verif.Props.MatchBern
import Verif.Model.Markdown
import Verif.Spec.Markdown
import Verif.Lemmas.Markdown
import Verif.Props.Markdown
import Verif.Props.Muon
import Verif.Spec.Mixing
import Verif.Lemmas.Mixing
import Verif.Props.Mixing
import Verif.Spec.Inputs
import Verif.Lemmas.Inputs
import Verif.Lemmas.InputsBlk
import Verif.Props.Inputs
import Verif.Spec.Cp
import Verif.Lemmas.CpSmeft
import Verif.Lemmas.CpMatch
import Verif.Lemmas.CpWet
import Verif.Props.Cp
import Verif.Spec.FlavRot
import Verif.Lemmas.FlavRot
import Verif.Props.MatchEos
import Verif.Props.MatchWarsaw
import Verif.Spec.Bnv
import Verif.Lemmas.Bnv
import Verif.Props.MatchBnv
import Verif.Spec.Charge
import Verif.Lemmas.Phase
import Verif.Props.MatchPhase
import Verif.Spec.LagTensor
import Verif.Lemmas.LagBernFlavio
import Verif.Props.LagBernFlavio
import Verif.Spec.Full
import Verif.Props.Full
import Verif.Props.Agree
import Verif.Props.SmeftAgree
import Verif.Spec.FFDipoles
import Verif.Props.FFDipoles
import Verif.Props.EosBack
import Verif.Model.Install
import Verif.Props.Pipeline
import Verif.Spec.Targets
import Verif.Props.Targets
import Verif.Model.EosData
import Verif.Spec.EosTable
import Verif.Props.EosTable
import Verif.Props.Threshold
import Verif.Props.EosChain
import Verif.Props.SimChain
