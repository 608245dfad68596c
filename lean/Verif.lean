import Verif.Props.Logger
import Verif.Props.Time
import Verif.Props.Multi
import Verif.Props.Sampling
import Verif.Props.Sparse
import Verif.Props.Parse
import Verif.Props.Metrics
import Verif.Props.Graph
import Verif.Props.Utils
import Verif.Props.Markov
import Verif.Props.Activity
import Verif.Props.Clock
import Verif.Props.Heating
import Verif.Props.Thermostat
import Verif.Props.Appliance
import Verif.Props.Lighting
import Verif.Props.Cars
import Verif.Props.Load
import Verif.Props.Climate
import Verif.Props.Ninja
import Verif.Props.Solar
import Verif.Props.Temperature
import Verif.Props.Profiles
import Verif.Props.Store
import Verif.Props.Equip
import Verif.Props.Follow
import Verif.Props.Bulbs
import Verif.Props.Survey
import Verif.Props.SurveyStats
import Verif.Props.SurveyProfile
import Verif.Props.SurveyLoader
import Verif.Props.SurveyMask
import Verif.Props.SurveyTpm
import Verif.Props.SurveySparse
import Verif.Props.SurveyInd
import Verif.Props.Archive
import Verif.Props.SurveyFour
import Verif.Props.Atus
import Verif.Props.InputFile
import Verif.Props.Grouping
import Verif.Props.Example
import Verif.Props.Refusals
import Verif.Props.SetPoints
import Verif.Props.Arma
import Verif.Props.Patterns
import Verif.Props.Individuals
import Verif.Props.SemiIndividuals
import Verif.Props.Similarity
import Verif.Props.Crest
import Verif.Props.Destatis
import Verif.Props.OccSim
import Verif.Props.ActSim
import Verif.Props.ProbActSim
import Verif.Props.LightSim
import Verif.Props.CrestSim
import Verif.Props.LoadSim
import Verif.Props.HeatSim
import Verif.Props.LoadHeat
import Verif.Props.LoadSparse
import Verif.Props.SparseAct
