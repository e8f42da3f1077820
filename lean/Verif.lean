import Verif.CodecProps
import Verif.ActivationProps
import Verif.ConditionProps
import Verif.ThresholdProps
import Verif.RuleProps
import Verif.RuleStatProps
import Verif.MeasureProps
import Verif.VoteProps
import Verif.FigureProps
import Verif.RuleSetProps
import Verif.SortProps
import Verif.FitProps
import Verif.SaveProps
import Verif.TextProps
import Verif.PredictProps
import Verif.SetProps
import Verif.CriterionProps
import Verif.TreeProps
import Verif.StackedEvalProps
import Verif.StackedFitProps
import Verif.StackedCritProps
import Verif.MeetProps
import Verif.RuleHeapProps
import Verif.RuleAttrProps
import Verif.SettingsProps
import Verif.SetHeapProps
import Verif.RsHashProps
import Verif.CondHeapProps
import Verif.SetEvalProps
import Verif.RoundedProps
import Verif.RoundedVoteProps
import Verif.RulePredictProps
import Verif.SetHistoryProps
import Verif.FrameHeapProps
import Verif.SharedRulesProps
import Verif.ShowTextProps
import Verif.RuleFlagProps
import Verif.ProfileProps
import Verif.TargetIndexProps
import Verif.BaselineProps
import Verif.LocalProps
import Verif.RowOrderProps
import Verif.LoadFlagProps
import Verif.RowOrderSetProps
import Verif.AgainProps
import Verif.AgainSetProps
import Verif.UnitProps
import Verif.UnitSetProps
import Verif.ScaleSpec
import Verif.ScaleLemmas
import Verif.ScaleRun
import Verif.ScaleProps
import Verif.ScaleSetLemmas
import Verif.ScaleSetProps
import Verif.ClassNameLemmas
import Verif.ClassNameProps
import Verif.RangeSpec
import Verif.RangeLemmas
import Verif.RangeClassLemmas
import Verif.RangeSetLemmas
import Verif.RangeProps
import Verif.ColumnSpec
import Verif.ColumnLemmas
import Verif.ColumnProps
import Verif.TighterSpec
import Verif.TighterLemmas
import Verif.TighterProps
import Verif.ActiveSpec
import Verif.ActiveLemmas
import Verif.ActiveProps
import Verif.RepeatSpec
import Verif.RepeatLemmas
import Verif.RepeatProps
import Verif.Traverse
import Verif.TraverseSpec
import Verif.TraverseProps
import Verif.RowOrderCritLemmas
import Verif.RowOrderCritProps
import Verif.InsideSpec
import Verif.InsideLemmas
import Verif.InsideProps
import Verif.NarrowSpec
import Verif.NarrowProps
import Verif.ShowRule
import Verif.ShowRuleProps
import Verif.SetCoverSpec
import Verif.SetCoverProps
import Verif.Version
import Verif.VersionSpec
import Verif.VersionLemmas
import Verif.VersionRun
import Verif.VersionProps
import Verif.GivenSpec
import Verif.GivenProps
import Verif.RowOrderRaise
import Verif.RowOrderRaiseProps
import Verif.SetAttr
import Verif.SetAttrSpec
import Verif.SetAttrProps
import Verif.LoadPredictSpec
import Verif.LoadPredictLemmas
import Verif.LoadPredictProps
import Verif.TreePredictSpec
import Verif.TreePredictLemmas
import Verif.TreePredictProps
import Verif.TargetRaiseProps
import Verif.WeightRatioSpec
import Verif.WeightRatioLemmas
import Verif.EqualWeightLemmas
import Verif.WeightRatioProps
import Verif.FeatureTableSpec
import Verif.FeatureTableLemmas
import Verif.FeatureTableProps
import Verif.ConditionItems
import Verif.ConditionItemsLemmas
import Verif.ConditionItemsProps
import Verif.BoundTextSpec
import Verif.BoundTextLemmas
import Verif.BoundTextProps
import Verif.ZeroWeightLemmas
import Verif.DefaultNamesLemmas
import Verif.DefaultNamesProps
import Verif.SharedTwiceProps
import Verif.UnfittedLemmas
import Verif.UnfittedProps
import Verif.SavedFiguresProps
import Verif.RuleType
import Verif.RuleTypeProps
import Verif.RowOrderClassLemmas
import Verif.RowOrderClassProps
import Verif.RepoTests
import Verif.AgainEvalProps
import Verif.IdleColumnLemmas
import Verif.IdleColumnProps
import Verif.BranchProps
import Verif.BinaryProps
import Verif.FailSpec
import Verif.FailLemmas
import Verif.FailProps
import Verif.RefusedTextProps
import Verif.FiguresKeptLemmas
import Verif.FiguresKeptProps
import Verif.OneRuleSpec
import Verif.OneRuleLemmas
import Verif.OneRuleProps
import Verif.OneRuleStackProps
import Verif.OneRuleCritProps
import Verif.RuleFailSpec
import Verif.RuleFailLemmas
import Verif.RuleFailProps
import Verif.EachPointLemmas
import Verif.EachPointProps
