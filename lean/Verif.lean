import Verif.Py.Basic
import Verif.Py.Dict
import Verif.Py.Frame
import Verif.Py.RatInst
import Verif.Py.RealInst
import Verif.Py.Table
import Verif.Model.BackCalc
import Verif.Model.Batch
import Verif.Model.BoxCarbon
import Verif.Model.Carbon
import Verif.Model.CarbonInst
import Verif.Model.CarbonOut
import Verif.Model.ConfigDistro
import Verif.Model.Distribution
import Verif.Model.Driver
import Verif.Model.Factory
import Verif.Model.Files
import Verif.Model.FlatParams
import Verif.Model.Handler
import Verif.Model.InputHandler
import Verif.Model.Parallel
import Verif.Model.Perturb
import Verif.Model.PubUtils
import Verif.Model.RFuns
import Verif.Model.Reader
import Verif.Model.Results
import Verif.Model.Sampling
import Verif.Model.Session
import Verif.Model.Shared
import Verif.Model.ThermalInst
import Verif.Model.TwoLayer
import Verif.Model.UDM
import Verif.Model.Utils
import Verif.Spec.Asked
import Verif.Spec.Batch
import Verif.Spec.Co2Emissions
import Verif.Spec.Complete
import Verif.Spec.Decay
import Verif.Spec.Defaults
import Verif.Spec.Diffusion
import Verif.Spec.DiffusionReport
import Verif.Spec.Emissions
import Verif.Spec.Files
import Verif.Spec.Forcing
import Verif.Spec.Hemispheres
import Verif.Spec.History
import Verif.Spec.Inputs
import Verif.Spec.Length
import Verif.Spec.LookAhead
import Verif.Spec.MoreCo2
import Verif.Spec.MoreMethane
import Verif.Spec.OneComponent
import Verif.Spec.OneGas
import Verif.Spec.Order
import Verif.Spec.Ozone
import Verif.Spec.Pamset
import Verif.Spec.Perturb
import Verif.Spec.Replay
import Verif.Spec.Response
import Verif.Spec.Reuse
import Verif.Spec.Routing
import Verif.Spec.Sampling
import Verif.Spec.Session
import Verif.Spec.Superpose
import Verif.Spec.Tridiag
import Verif.Spec.Uses
import Verif.Spec.Variables
import Verif.Lemmas.Agree
import Verif.Lemmas.AgreeConstruct
import Verif.Lemmas.AgreeRun
import Verif.Lemmas.Asked
import Verif.Lemmas.Batch
import Verif.Lemmas.BatchForcing
import Verif.Lemmas.BuildLong
import Verif.Lemmas.Carbon
import Verif.Lemmas.CarbonOut
import Verif.Lemmas.CarbonRerun
import Verif.Lemmas.CarbonRun
import Verif.Lemmas.Co2
import Verif.Lemmas.CompleteCarbon
import Verif.Lemmas.CompleteConstruct
import Verif.Lemmas.CompleteReset
import Verif.Lemmas.CompleteRun
import Verif.Lemmas.Decay
import Verif.Lemmas.Dict
import Verif.Lemmas.Driver
import Verif.Lemmas.Emissions
import Verif.Lemmas.Except
import Verif.Lemmas.FlatErase
import Verif.Lemmas.Frame
import Verif.Lemmas.Handler
import Verif.Lemmas.HandlerState
import Verif.Lemmas.Hemispheres
import Verif.Lemmas.InputCreate
import Verif.Lemmas.InputErase
import Verif.Lemmas.InputHandler
import Verif.Lemmas.Methane
import Verif.Lemmas.OneGas
import Verif.Lemmas.OneGasRun
import Verif.Lemmas.OtherEmissions
import Verif.Lemmas.Pams
import Verif.Lemmas.Perturb
import Verif.Lemmas.PlainRun
import Verif.Lemmas.Precalc
import Verif.Lemmas.RFuns
import Verif.Lemmas.Reader
import Verif.Lemmas.ReaderCodes
import Verif.Lemmas.Rerun
import Verif.Lemmas.ResultTables
import Verif.Lemmas.RunHandler
import Verif.Lemmas.RunYear
import Verif.Lemmas.Shared
import Verif.Lemmas.Strings
import Verif.Lemmas.Tridiag
import Verif.Lemmas.UDM
import Verif.Lemmas.UDMDom
import Verif.Lemmas.UDMRun
import Verif.Lemmas.UDMYear
import Verif.Lemmas.Utils
import Verif.Props.Aerosols
import Verif.Props.C01_C02
import Verif.Props.C03_C04
import Verif.Props.C05_C09_C10_C11
import Verif.Props.C06_C08
import Verif.Props.C06_run
import Verif.Props.C07
import Verif.Props.C08
import Verif.Props.C100
import Verif.Props.C101
import Verif.Props.C101_emitted
import Verif.Props.C12
import Verif.Props.C13
import Verif.Props.C13_run
import Verif.Props.C14
import Verif.Props.C14_run
import Verif.Props.C15
import Verif.Props.C16
import Verif.Props.C17
import Verif.Props.C18_C19
import Verif.Props.C20_C21_C28
import Verif.Props.C22_C23
import Verif.Props.C24_C25
import Verif.Props.C26_C54
import Verif.Props.C27
import Verif.Props.C29_C32
import Verif.Props.C31
import Verif.Props.C33_C34
import Verif.Props.C35
import Verif.Props.C36
import Verif.Props.C37_C38_C39
import Verif.Props.C40_C41_C57
import Verif.Props.C42_C43
import Verif.Props.C44_C45
import Verif.Props.C45_carbon
import Verif.Props.C45_unread
import Verif.Props.C46
import Verif.Props.C47
import Verif.Props.C48
import Verif.Props.C49_C50
import Verif.Props.C51_C52
import Verif.Props.C53
import Verif.Props.C55
import Verif.Props.C56
import Verif.Props.C59
import Verif.Props.C60
import Verif.Props.C61
import Verif.Props.C62
import Verif.Props.C63
import Verif.Props.C63_udm
import Verif.Props.C64_each
import Verif.Props.C65_C66
import Verif.Props.C67_C68
import Verif.Props.C69_C70
import Verif.Props.C71
import Verif.Props.C72
import Verif.Props.C73
import Verif.Props.C74
import Verif.Props.C75
import Verif.Props.C76
import Verif.Props.C77
import Verif.Props.C78
import Verif.Props.C79
import Verif.Props.C79_steps
import Verif.Props.C80
import Verif.Props.C81
import Verif.Props.C81_bounded
import Verif.Props.C81_diffusion
import Verif.Props.C81_reported
import Verif.Props.C82
import Verif.Props.C83
import Verif.Props.C83_runs
import Verif.Props.C84
import Verif.Props.C84_rows
import Verif.Props.C85
import Verif.Props.C86
import Verif.Props.C87
import Verif.Props.C87_usable
import Verif.Props.C88
import Verif.Props.C88_run
import Verif.Props.C89
import Verif.Props.C90
import Verif.Props.C91
import Verif.Props.C91_diffusion
import Verif.Props.C92
import Verif.Props.C93
import Verif.Props.C93_order
import Verif.Props.C94
import Verif.Props.C95
import Verif.Props.C95_model
import Verif.Props.C96
import Verif.Props.C97
import Verif.Props.C98
import Verif.Props.C99
import Verif.Props.C99_emitted
import Verif.Props.Cases
import Verif.Props.RichExamples
import Verif.Exec.Co2Run
import Verif.Exec.EmisRun
import Verif.Exec.FloatRun
import Verif.Exec.GasRun
import Verif.Exec.InputRun
import Verif.Exec.LaterRun
import Verif.Exec.MethaneRun
import Verif.Exec.OptionRun
import Verif.Exec.RatRun
import Verif.Exec.RealRun
import Verif.Exec.RichRun
