import Verif.Props.Dense
import Verif.Props.Sparse
import Verif.Props.MaxAbs
import Verif.Props.Convert
import Verif.Props.Options
import Verif.Props.Stats
import Verif.Props.Run
import Verif.Props.Tracking
import Verif.Props.Dynamic
import Verif.Props.Penalty
import Verif.Props.Output
import Verif.Props.Load
import Verif.Props.Safety
import Verif.Props.LoadSparse
import Verif.Props.Switch
import Verif.Props.SafetySparse
import Verif.Props.SafetyModes
import Verif.Props.SafetyMixed
import Verif.Props.Certify
import Verif.Props.Subproblem
import Verif.Props.Feasible
import Verif.Props.CertifyEx
import Verif.Props.Perturb
import Verif.Props.Choice
import Verif.Props.Classify
import Verif.Props.Again
import Verif.Props.Reload
import Verif.Props.Modes
import Verif.Props.Files
import Verif.Props.Matlab
import Verif.Props.MatlabLoad
import Verif.Props.MatlabOptions
import Verif.Props.Python
import Verif.Props.Memory
import Verif.Props.Enough
import Verif.Props.Cycle
import Verif.Props.Rows
import Verif.Props.Rounding
import Verif.Props.Doubles
import Verif.Props.Checked
import Verif.Props.CheckedCount
import Verif.Props.Nan
import Verif.Props.Drift
import Verif.Props.RoundingSparse
import Verif.Props.UnitTests
import Verif.Props.Wrapper
import Verif.Props.MatlabSparse
import Verif.Props.MatlabChecks
import Verif.Props.Scalars
import Verif.Props.Messages
import Verif.Props.PythonSparse
import Verif.Lemmas.Local
import Verif.Props.Local
import Verif.Props.Symmetry
import Verif.Props.Reference
import Verif.Props.Independent
import Verif.Props.IndependentEx
import Verif.Props.PythonBind
import Verif.Props.Text
import Verif.Props.Print
import Verif.Props.Quiet
import Verif.Props.CircleReal
import Verif.Props.CircleEx
import Verif.Props.FromFileEx
import Verif.Props.WarmUpEx
import Verif.Props.WarmUpMax
import Verif.Props.WarmUpMore
import Verif.Props.WarmUpMoreEx
import Verif.Props.MatlabCallEx
import Verif.Props.MatlabScriptsEx
import Verif.Props.PythonScriptsEx
import Verif.Props.TestSuite
import Verif.Props.UnitsEx
import Verif.Props.GuessEx
import Verif.Spec.Apex
import Verif.Lemmas.Apex
import Verif.Lemmas.Success
import Verif.Props.Success
import Verif.Props.SuccessEx
import Verif.Spec.Inexact
import Verif.Lemmas.Inexact
import Verif.Props.Inexact
import Verif.Props.InexactEx
import Verif.Model.MatlabDefaults
import Verif.Props.Documented
import Verif.Spec.OneSetup
import Verif.Lemmas.OneSetup
import Verif.Props.OneSetup
import Verif.Lemmas.Junk
import Verif.Props.Uninitialised
import Verif.Lemmas.Random
import Verif.Props.Random
import Verif.Lemmas.Unfinished
import Verif.Props.Unfinished
import Verif.Model.SetBound
import Verif.Lemmas.SetBound
import Verif.Props.SetBound
import Verif.Lemmas.QpStats
import Verif.Props.QpStats
import Verif.Lemmas.QpRefused
import Verif.Props.QpRefused
