import Verif.Lemmas.BootErr
import Verif.Lemmas.Config
import Verif.Lemmas.Convolve
import Verif.Lemmas.Convolve1
import Verif.Lemmas.Covar
import Verif.Lemmas.DE
import Verif.Lemmas.DESafe
import Verif.Lemmas.DataFile
import Verif.Lemmas.Dream
import Verif.Lemmas.DreamResume
import Verif.Lemmas.DreamStat
import Verif.Lemmas.DreamToy
import Verif.Lemmas.Driver
import Verif.Lemmas.DriverMulti
import Verif.Lemmas.DriverStart
import Verif.Lemmas.Enorm
import Verif.Lemmas.Fit
import Verif.Lemmas.FitCash
import Verif.Lemmas.FitFinal
import Verif.Lemmas.FitPix
import Verif.Lemmas.FitRun
import Verif.Lemmas.FitSetup
import Verif.Lemmas.FitStats
import Verif.Lemmas.FitTerms
import Verif.Lemmas.Flux
import Verif.Lemmas.Func
import Verif.Lemmas.FuncSetup
import Verif.Lemmas.Funcs1d
import Verif.Lemmas.Householder
import Verif.Lemmas.Image
import Verif.Lemmas.ImageInfo
import Verif.Lemmas.ImageRows
import Verif.Lemmas.LevMar
import Verif.Lemmas.LevMarXR
import Verif.Lemmas.LineSight
import Verif.Lemmas.LineSightInt
import Verif.Lemmas.LmPar
import Verif.Lemmas.MpfitEnds
import Verif.Lemmas.MpfitFull
import Verif.Lemmas.MpfitReal
import Verif.Lemmas.MpfitTurns
import Verif.Lemmas.Multi
import Verif.Lemmas.Options
import Verif.Lemmas.Plane
import Verif.Lemmas.PlaneProfiles
import Verif.Lemmas.PlaneSetup
import Verif.Lemmas.Profile
import Verif.Lemmas.ProfileRun
import Verif.Lemmas.Psf
import Verif.Lemmas.QRFac
import Verif.Lemmas.QRSolv
import Verif.Lemmas.Rows
import Verif.Lemmas.Run
import Verif.Lemmas.Sat
import Verif.Lemmas.Spiral
import Verif.Lemmas.Stats
import Verif.Lemmas.Text
import Verif.Model.BootErr
import Verif.Model.BootErr1d
import Verif.Model.Bootstrap
import Verif.Model.Checkerboard
import Verif.Model.CmdLine
import Verif.Model.Config
import Verif.Model.Convolve
import Verif.Model.DE
import Verif.Model.Dispatch
import Verif.Model.Dream
import Verif.Model.Driver
import Verif.Model.Fit
import Verif.Model.Fits
import Verif.Model.Flux
import Verif.Model.FluxTable
import Verif.Model.Func
import Verif.Model.Funcs1d
import Verif.Model.Header
import Verif.Model.Image
import Verif.Model.ImageInfo
import Verif.Model.Jacobian
import Verif.Model.Layout
import Verif.Model.LevMar
import Verif.Model.LinAlg
import Verif.Model.LineSight
import Verif.Model.Loop
import Verif.Model.MakeRun
import Verif.Model.Makeimage
import Verif.Model.Makemulti
import Verif.Model.Math
import Verif.Model.Mcmc
import Verif.Model.Memory
import Verif.Model.MpfitFull
import Verif.Model.Multi
import Verif.Model.Multimfit
import Verif.Model.Nlopt
import Verif.Model.Options
import Verif.Model.OsPsf
import Verif.Model.Output
import Verif.Model.Parallel
import Verif.Model.Plane
import Verif.Model.Print
import Verif.Model.PrintMulti
import Verif.Model.Profile
import Verif.Model.Psf
import Verif.Model.PsfConvolve
import Verif.Model.ReadProfile
import Verif.Model.Region
import Verif.Model.Registry
import Verif.Model.Report
import Verif.Model.Res
import Verif.Model.Rings
import Verif.Model.Run
import Verif.Model.SharedParams
import Verif.Model.Spiral
import Verif.Model.Spline
import Verif.Model.Stats
import Verif.Model.Text
import Verif.Model.Twister
import Verif.Model.XR
import Verif.Props.C01
import Verif.Props.C02
import Verif.Props.C03
import Verif.Props.C04
import Verif.Props.C05
import Verif.Props.C06
import Verif.Props.C07
import Verif.Props.C08
import Verif.Props.C09
import Verif.Props.C10
import Verif.Props.C100
import Verif.Props.C101
import Verif.Props.C102
import Verif.Props.C103
import Verif.Props.C104
import Verif.Props.C105
import Verif.Props.C106
import Verif.Props.C107
import Verif.Props.C108
import Verif.Props.C109
import Verif.Props.C11
import Verif.Props.C110
import Verif.Props.C111
import Verif.Props.C112
import Verif.Props.C113
import Verif.Props.C114
import Verif.Props.C115
import Verif.Props.C116
import Verif.Props.C117
import Verif.Props.C118
import Verif.Props.C119
import Verif.Props.C11Race
import Verif.Props.C12
import Verif.Props.C120
import Verif.Props.C120Image
import Verif.Props.C121
import Verif.Props.C122
import Verif.Props.C123
import Verif.Props.C124
import Verif.Props.C125
import Verif.Props.C126
import Verif.Props.C127
import Verif.Props.C128
import Verif.Props.C129
import Verif.Props.C13
import Verif.Props.C130
import Verif.Props.C131
import Verif.Props.C14
import Verif.Props.C15
import Verif.Props.C16
import Verif.Props.C17
import Verif.Props.C18
import Verif.Props.C19
import Verif.Props.C20
import Verif.Props.C21
import Verif.Props.C22
import Verif.Props.C23
import Verif.Props.C24
import Verif.Props.C25
import Verif.Props.C26
import Verif.Props.C27
import Verif.Props.C27Step
import Verif.Props.C28
import Verif.Props.C29
import Verif.Props.C30
import Verif.Props.C31
import Verif.Props.C32
import Verif.Props.C33
import Verif.Props.C34
import Verif.Props.C35
import Verif.Props.C36
import Verif.Props.C37
import Verif.Props.C37Scale
import Verif.Props.C38
import Verif.Props.C39
import Verif.Props.C40
import Verif.Props.C41
import Verif.Props.C42
import Verif.Props.C43
import Verif.Props.C44
import Verif.Props.C45
import Verif.Props.C45Cases
import Verif.Props.C45Items
import Verif.Props.C46
import Verif.Props.C47
import Verif.Props.C48
import Verif.Props.C49
import Verif.Props.C50
import Verif.Props.C51
import Verif.Props.C52
import Verif.Props.C52Rot
import Verif.Props.C53
import Verif.Props.C53LineSight
import Verif.Props.C54
import Verif.Props.C55
import Verif.Props.C56
import Verif.Props.C57
import Verif.Props.C58
import Verif.Props.C59
import Verif.Props.C60
import Verif.Props.C61
import Verif.Props.C62
import Verif.Props.C63
import Verif.Props.C63Jump
import Verif.Props.C64
import Verif.Props.C65
import Verif.Props.C66
import Verif.Props.C67
import Verif.Props.C68
import Verif.Props.C69
import Verif.Props.C70
import Verif.Props.C71
import Verif.Props.C72
import Verif.Props.C73
import Verif.Props.C74
import Verif.Props.C75
import Verif.Props.C75Turned
import Verif.Props.C76
import Verif.Props.C77
import Verif.Props.C78
import Verif.Props.C79
import Verif.Props.C80
import Verif.Props.C80b
import Verif.Props.C81
import Verif.Props.C82
import Verif.Props.C83
import Verif.Props.C84
import Verif.Props.C85
import Verif.Props.C86
import Verif.Props.C87
import Verif.Props.C88
import Verif.Props.C89
import Verif.Props.C90
import Verif.Props.C90Cases
import Verif.Props.C91
import Verif.Props.C92
import Verif.Props.C92Save
import Verif.Props.C93
import Verif.Props.C94
import Verif.Props.C95
import Verif.Props.C96
import Verif.Props.C97
import Verif.Props.C98
import Verif.Props.C99
import Verif.Spec.Box
import Verif.Spec.CmdLine
import Verif.Spec.Config
import Verif.Spec.Continue
import Verif.Spec.Convolve
import Verif.Spec.DataFile
import Verif.Spec.Dispatch
import Verif.Spec.Dream
import Verif.Spec.DreamStat
import Verif.Spec.Driver
import Verif.Spec.Fit
import Verif.Spec.Flux
import Verif.Spec.Func
import Verif.Spec.Header
import Verif.Spec.ImageInfo
import Verif.Spec.ImageItems
import Verif.Spec.Images
import Verif.Spec.Jacobian
import Verif.Spec.Layout
import Verif.Spec.LinAlg
import Verif.Spec.LineSight
import Verif.Spec.Makeimage
import Verif.Spec.Makemulti
import Verif.Spec.Mcmc
import Verif.Spec.Multi
import Verif.Spec.MultiColumns
import Verif.Spec.Multimfit
import Verif.Spec.Nlopt
import Verif.Spec.Options
import Verif.Spec.Plane
import Verif.Spec.PrintMulti
import Verif.Spec.Profile
import Verif.Spec.Profile1
import Verif.Spec.Psf
import Verif.Spec.PsfConvolve
import Verif.Spec.Registry
import Verif.Spec.Section
import Verif.Spec.Spiral
import Verif.Spec.Spline
import Verif.Spec.Stat
import Verif.Spec.Text
import Verif.Spec.Twister
