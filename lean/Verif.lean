import Verif.Data.Alpha
import Verif.Data.Charges
import Verif.Data.Checks
import Verif.Data.ChecksCN
import Verif.Data.Params
import Verif.Data.R4R2
import Verif.Data.Refs
import Verif.Data.Shipped
import Verif.Data.WfPair
import Verif.Lemmas.Alpha
import Verif.Lemmas.Api
import Verif.Lemmas.AtomicC6
import Verif.Lemmas.Autograd
import Verif.Lemmas.AutogradCharge
import Verif.Lemmas.AutogradDamping
import Verif.Lemmas.AutogradDisp
import Verif.Lemmas.AutogradEnergy
import Verif.Lemmas.AutogradFinite
import Verif.Lemmas.AutogradFit
import Verif.Lemmas.AutogradNaN
import Verif.Lemmas.AutogradPair
import Verif.Lemmas.AutogradParam
import Verif.Lemmas.AutogradWeights
import Verif.Lemmas.Bounds
import Verif.Lemmas.Broadcast
import Verif.Lemmas.C6Charge
import Verif.Lemmas.C6Pos
import Verif.Lemmas.C6Props
import Verif.Lemmas.C6Range
import Verif.Lemmas.C6Spec
import Verif.Lemmas.C6Upper
import Verif.Lemmas.Calc
import Verif.Lemmas.Central
import Verif.Lemmas.CutoffTensor
import Verif.Lemmas.Damping
import Verif.Lemmas.DampingState
import Verif.Lemmas.Device
import Verif.Lemmas.Dispersion2
import Verif.Lemmas.Dispersion3
import Verif.Lemmas.Displace
import Verif.Lemmas.Energy
import Verif.Lemmas.Errors
import Verif.Lemmas.ForceSymmetry
import Verif.Lemmas.Forces
import Verif.Lemmas.Hessian
import Verif.Lemmas.HessianDamping
import Verif.Lemmas.HessianDisp
import Verif.Lemmas.HessianEnergy
import Verif.Lemmas.HessianWeights
import Verif.Lemmas.Ieee
import Verif.Lemmas.IeeeEnergy
import Verif.Lemmas.IeeeFine
import Verif.Lemmas.IeeeFits
import Verif.Lemmas.IeeeModest
import Verif.Lemmas.IeeeRun
import Verif.Lemmas.IeeeSingle
import Verif.Lemmas.IeeeSound
import Verif.Lemmas.Kernel
import Verif.Lemmas.Local
import Verif.Lemmas.LocalCN
import Verif.Lemmas.OnlyDamping
import Verif.Lemmas.Packing
import Verif.Lemmas.ParamScan
import Verif.Lemmas.ParamTensor
import Verif.Lemmas.Params
import Verif.Lemmas.Pols
import Verif.Lemmas.Rounded
import Verif.Lemmas.RoundedAlpha
import Verif.Lemmas.RoundedEnergy
import Verif.Lemmas.RoundedRef
import Verif.Lemmas.RoundedStages
import Verif.Lemmas.Runs
import Verif.Lemmas.Setup
import Verif.Lemmas.TermSmooth
import Verif.Lemmas.Terms
import Verif.Lemmas.Textbook
import Verif.Lemmas.TextbookStable
import Verif.Lemmas.TwoBody
import Verif.Lemmas.Underflow
import Verif.Lemmas.Weights
import Verif.Model.Aliasing
import Verif.Model.Autograd
import Verif.Model.AutogradDamping
import Verif.Model.AutogradDisp
import Verif.Model.AutogradParam
import Verif.Model.AutogradProps
import Verif.Model.CutoffTensor
import Verif.Model.DType
import Verif.Model.Damping
import Verif.Model.DampingClass
import Verif.Model.DampingState
import Verif.Model.Device
import Verif.Model.Disp
import Verif.Model.Ieee
import Verif.Model.NumberCharge
import Verif.Model.Numeric
import Verif.Model.Objects
import Verif.Model.OnlyDamping
import Verif.Model.ParamTensor
import Verif.Model.Params
import Verif.Model.RefModel
import Verif.Model.Rounded
import Verif.Model.RoundedAlpha
import Verif.Model.Schema
import Verif.Model.SignedIndex
import Verif.Model.Tensor
import Verif.Model.ThreeBody
import Verif.Model.TwoBody
import Verif.Model.UserTerm
import Verif.Model.Utils
import Verif.Props.AnyDisp
import Verif.Props.C01
import Verif.Props.C02
import Verif.Props.C03
import Verif.Props.C04
import Verif.Props.C05
import Verif.Props.C06
import Verif.Props.C07
import Verif.Props.C08
import Verif.Props.C09
import Verif.Props.C10
import Verif.Props.C11
import Verif.Props.C12
import Verif.Props.C13
import Verif.Props.C14
import Verif.Props.C15
import Verif.Props.C16
import Verif.Props.C16Pos
import Verif.Props.C17
import Verif.Props.C18
import Verif.Props.C19
import Verif.Props.C20
import Verif.Props.C21
import Verif.Props.C22
import Verif.Props.C23
import Verif.Props.C24
import Verif.Props.C25
import Verif.Props.C26
import Verif.Props.C27
import Verif.Props.C28
import Verif.Props.C29
import Verif.Props.C30
import Verif.Props.C31
import Verif.Props.C31D3
import Verif.Props.C32
import Verif.Props.C32CN
import Verif.Props.C32Coords
import Verif.Props.C33
import Verif.Props.C34
import Verif.Props.C35
import Verif.Props.C36
import Verif.Props.C37
import Verif.Props.C38
import Verif.Props.C39
import Verif.Props.C40
import Verif.Props.C41
import Verif.Props.C42
import Verif.Props.C43
import Verif.Props.C44
import Verif.Props.C45
import Verif.Props.C46
import Verif.Props.C47
import Verif.Props.C48
import Verif.Props.C49
import Verif.Props.C50
import Verif.Props.C51
import Verif.Props.C52
import Verif.Props.C53
import Verif.Props.C54
import Verif.Props.C55
import Verif.Props.C56
import Verif.Props.C57
import Verif.Props.C58
import Verif.Props.C59
import Verif.Props.C60
import Verif.Props.C61
import Verif.Props.C62
import Verif.Props.C63
import Verif.Props.C63Ref
import Verif.Props.C64
import Verif.Props.C65
import Verif.Props.C66
import Verif.Props.C67
import Verif.Props.C68
import Verif.Props.C69
import Verif.Props.C70
import Verif.Props.C71
import Verif.Props.C72
import Verif.Props.C73
import Verif.Props.C74
import Verif.Props.C75
import Verif.Props.C76
import Verif.Props.C77
import Verif.Props.C78
import Verif.Props.C78Single
import Verif.Props.C79
import Verif.Props.C80
import Verif.Props.C81
import Verif.Props.C82
import Verif.Props.C83
import Verif.Props.C84
import Verif.Props.C85
import Verif.Props.C86
import Verif.Props.C87
import Verif.Props.C88
import Verif.Props.C89
import Verif.Props.C90
import Verif.Props.C91
import Verif.Props.C92
import Verif.Props.C93
import Verif.Props.C93Shared
import Verif.Props.C94
import Verif.Props.C95
import Verif.Props.C96
import Verif.Props.C96Energy
import Verif.Props.C97
import Verif.Props.C98
import Verif.Props.C99
import Verif.Props.C99Column
import Verif.Spec.Atm
import Verif.Spec.C6
import Verif.Spec.D4
import Verif.Spec.Damping
import Verif.Spec.Energy
import Verif.Spec.External
import Verif.Spec.Forces
import Verif.Spec.Textbook
