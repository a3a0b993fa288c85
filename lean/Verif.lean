import Verif.Lemmas.Batched
import Verif.Lemmas.Count
import Verif.Lemmas.Except
import Verif.Lemmas.Filter
import Verif.Lemmas.Multiannotator
import Verif.Lemmas.Multilabel
import Verif.Lemmas.Rounding
import Verif.Lemmas.RoundingTies
import Verif.Model.ActiveLearning
import Verif.Model.Append
import Verif.Model.Baselines
import Verif.Model.Batched
import Verif.Model.CheckInfo
import Verif.Model.CleanLearning
import Verif.Model.CleanLearningArgs
import Verif.Model.CompressInts
import Verif.Model.Containers
import Verif.Model.Coteaching
import Verif.Model.CoteachingEpoch
import Verif.Model.Count
import Verif.Model.CrossVal
import Verif.Model.CrossValEstimates
import Verif.Model.CustomCheck
import Verif.Model.DataIssues
import Verif.Model.DataValuation
import Verif.Model.DatalabChecks
import Verif.Model.DatalabData
import Verif.Model.DatalabInfo
import Verif.Model.DatalabLoad
import Verif.Model.Dataset
import Verif.Model.Detection
import Verif.Model.DetectionBoxes
import Verif.Model.DetectionPlot
import Verif.Model.DetectionScore
import Verif.Model.DetectionSummary
import Verif.Model.Distance
import Verif.Model.Duplicate
import Verif.Model.Filter
import Verif.Model.FilterChecked
import Verif.Model.IdentifierFeatures
import Verif.Model.ImageChecks
import Verif.Model.Imagelab
import Verif.Model.IssueFinder
import Verif.Model.Jobs
import Verif.Model.KnnBuild
import Verif.Model.KnnGraph
import Verif.Model.KnnHistory
import Verif.Model.KnnStats
import Verif.Model.LabelCheck
import Verif.Model.LabelContainer
import Verif.Model.LabelManager
import Verif.Model.Latent
import Verif.Model.MnistCnn
import Verif.Model.Multiannotator
import Verif.Model.MultiannotatorFormat
import Verif.Model.MultiannotatorInput
import Verif.Model.MultiannotatorReport
import Verif.Model.Multilabel
import Verif.Model.MultilabelCount
import Verif.Model.MultilabelDataset
import Verif.Model.NanProbs
import Verif.Model.Networks
import Verif.Model.NoiseGeneration
import Verif.Model.NonIid
import Verif.Model.Outlier
import Verif.Model.OutlierCheck
import Verif.Model.OutlierFeatures
import Verif.Model.OutlierManager
import Verif.Model.OutlierPred
import Verif.Model.Outre
import Verif.Model.PermutationTest
import Verif.Model.Predict
import Verif.Model.Rank
import Verif.Model.RankAdjusted
import Verif.Model.RankReal
import Verif.Model.Registry
import Verif.Model.Regression
import Verif.Model.RegressionFit
import Verif.Model.RegressionRank
import Verif.Model.Report
import Verif.Model.Rounding
import Verif.Model.Segmentation
import Verif.Model.SegmentationDisplay
import Verif.Model.SegmentationSummary
import Verif.Model.Serialize
import Verif.Model.Spurious
import Verif.Model.Token
import Verif.Model.TokenSummary
import Verif.Model.TokenText
import Verif.Model.Validation
import Verif.Model.ValueCounts
import Verif.Np.Basic
import Verif.Np.Collect
import Verif.Np.Lemmas
import Verif.Np.Median
import Verif.Np.Percentile
import Verif.Np.SortOn
import Verif.Props.ActiveLearning
import Verif.Props.AdjustedScores
import Verif.Props.AnnotatorClasses
import Verif.Props.AnnotatorExtraClass
import Verif.Props.AnnotatorExtraStats
import Verif.Props.AnnotatorOrder
import Verif.Props.AnnotatorRanking
import Verif.Props.AnnotatorRepetition
import Verif.Props.Append
import Verif.Props.BadlyPlaced
import Verif.Props.Balls
import Verif.Props.Baselines
import Verif.Props.Batched
import Verif.Props.BatchedFind
import Verif.Props.BatchedNumber
import Verif.Props.BatchedWhole
import Verif.Props.BetterBatched
import Verif.Props.BetterElsewhere
import Verif.Props.BetterPrediction
import Verif.Props.BetterTarget
import Verif.Props.BoxOrder
import Verif.Props.BoxPlacement
import Verif.Props.Calibration
import Verif.Props.CertainModules
import Verif.Props.CheckInfo
import Verif.Props.ClassNumbering
import Verif.Props.ClassNumberingJoint
import Verif.Props.CleanData
import Verif.Props.CleanFit
import Verif.Props.CleanLearning
import Verif.Props.CleanLearningArgs
import Verif.Props.CleanTwice
import Verif.Props.ClosePairs
import Verif.Props.CloserDuplicates
import Verif.Props.Containers
import Verif.Props.Copies
import Verif.Props.CorrectTwice
import Verif.Props.Coteaching
import Verif.Props.CoteachingEpoch
import Verif.Props.Count
import Verif.Props.CrossVal
import Verif.Props.Crowdlab
import Verif.Props.CrowdlabWeights
import Verif.Props.CustomCheck
import Verif.Props.DataIssues
import Verif.Props.DataValuation
import Verif.Props.DatalabChecks
import Verif.Props.DatalabData
import Verif.Props.DatalabInfo
import Verif.Props.DatalabLoad
import Verif.Props.Dataset
import Verif.Props.Detection
import Verif.Props.DetectionAp
import Verif.Props.DetectionBoxes
import Verif.Props.DetectionErrors
import Verif.Props.DetectionPlot
import Verif.Props.DetectionScore
import Verif.Props.DetectionSummary
import Verif.Props.DetectionThreshold
import Verif.Props.Duplicate
import Verif.Props.Ensemble
import Verif.Props.EnsembleMembers
import Verif.Props.EnsembleVotes
import Verif.Props.ExactErrors
import Verif.Props.ExampleOrder
import Verif.Props.ExtraClass
import Verif.Props.FalseDetections
import Verif.Props.FarExamples
import Verif.Props.FartherOutliers
import Verif.Props.FeatureChange
import Verif.Props.FeatureSpace
import Verif.Props.Filter
import Verif.Props.FilterChecked
import Verif.Props.FindThenFit
import Verif.Props.FineSearch
import Verif.Props.FitThenScore
import Verif.Props.FoundObjects
import Verif.Props.IdentifierFeatures
import Verif.Props.ImageChecks
import Verif.Props.Imagelab
import Verif.Props.IndependentParts
import Verif.Props.IssueFinder
import Verif.Props.IssueTable
import Verif.Props.Jobs
import Verif.Props.JointUnits
import Verif.Props.KnnBuild
import Verif.Props.KnnGraph
import Verif.Props.KnnHistory
import Verif.Props.KnnPrefix
import Verif.Props.KnnStats
import Verif.Props.LabelCheck
import Verif.Props.LabelContainer
import Verif.Props.LabelManager
import Verif.Props.Latent
import Verif.Props.LatentConsistent
import Verif.Props.LowValue
import Verif.Props.MajorityVote
import Verif.Props.MergedClasses
import Verif.Props.MnistCnn
import Verif.Props.MoreCertain
import Verif.Props.MoreExamples
import Verif.Props.MultiannotatorFormat
import Verif.Props.MultiannotatorInput
import Verif.Props.MultiannotatorReport
import Verif.Props.MultilabelAgree
import Verif.Props.MultilabelChecked
import Verif.Props.MultilabelCount
import Verif.Props.MultilabelDataset
import Verif.Props.MultilabelExtraClass
import Verif.Props.MultilabelExtraIssues
import Verif.Props.MultilabelExtraLow
import Verif.Props.MultilabelFilter
import Verif.Props.MultilabelOrder
import Verif.Props.MultilabelScore
import Verif.Props.MultilabelSmoothing
import Verif.Props.NanProbs
import Verif.Props.NearIdeal
import Verif.Props.Networks
import Verif.Props.NoiseMatrix
import Verif.Props.NoisyLabels
import Verif.Props.NonIid
import Verif.Props.OneExample
import Verif.Props.OodExtraClass
import Verif.Props.OodNumbering
import Verif.Props.OodTwoClasses
import Verif.Props.OtherRepetition
import Verif.Props.Outlier
import Verif.Props.OutlierAgreement
import Verif.Props.OutlierCheck
import Verif.Props.OutlierManager
import Verif.Props.OutlierPred
import Verif.Props.Outre
import Verif.Props.Parts
import Verif.Props.PartsAndWhole
import Verif.Props.PermutationTest
import Verif.Props.PixelArrangement
import Verif.Props.Predict
import Verif.Props.PuLearning
import Verif.Props.RandProbs
import Verif.Props.Rank
import Verif.Props.Registry
import Verif.Props.Regression
import Verif.Props.RegressionFit
import Verif.Props.RegressionRank
import Verif.Props.Repetition
import Verif.Props.Report
import Verif.Props.RightExample
import Verif.Props.Rounding
import Verif.Props.RowOrder
import Verif.Props.Segmentation
import Verif.Props.SegmentationDisplay
import Verif.Props.SegmentationSummary
import Verif.Props.SentenceOrder
import Verif.Props.Serialize
import Verif.Props.Shapley
import Verif.Props.SmallData
import Verif.Props.Smoothing
import Verif.Props.Spurious
import Verif.Props.Stability
import Verif.Props.SurerLabel
import Verif.Props.SyntheticNoise
import Verif.Props.TargetUnits
import Verif.Props.Thresholds
import Verif.Props.Token
import Verif.Props.TokenClasses
import Verif.Props.TokenSummary
import Verif.Props.TokenText
import Verif.Props.TwoClassesAgree
import Verif.Props.Units
import Verif.Props.Validation
import Verif.Props.ValueCounts
import Verif.Props.WorseGroup
import Verif.Props.WrongTargets
import Verif.Props.ZeroScore
import Verif.Spec.Annotators
import Verif.Spec.Classification
