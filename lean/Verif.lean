import Verif.Dims.Props
import Verif.Graph.Props
import Verif.Codegen.Props
import Verif.Grad.Props
import Verif.Bcast.Props
import Verif.Reduce.Props
import Verif.Concat.Props
import Verif.Pad.Props
import Verif.Window.Props
import Verif.Flatten.Props
import Verif.Reshape.Props
import Verif.Arange.Props
import Verif.Query.Props
import Verif.Transpose.Props
import Verif.Poly.Props
import Verif.Index.Props
import Verif.Containers.Props
import Verif.Nested.Props
import Verif.NumGrad.Props
import Verif.TimeSlots.Props
import Verif.Bisect.Props
import Verif.Keys.Props
import Verif.Roles.Props
import Verif.Serial.Props
import Verif.Save.Props
import Verif.Cycles.Props
import Verif.Naming.Props
import Verif.Solver.Props
import Verif.Values.Props
import Verif.Prune.Props
import Verif.Fold.Model
import Verif.Fold.Spec
import Verif.Fold.Props
import Verif.Ignore.Model
import Verif.Ignore.Spec
import Verif.Ignore.Lemmas
import Verif.Ignore.Props
import Verif.Pipeline.Props
import Verif.CKernel.Model
import Verif.CKernel.Spec
import Verif.CKernel.Lemmas
import Verif.CKernel.Elementwise
import Verif.CKernel.TransposeK
import Verif.CKernel.ReduceK
import Verif.CKernel.MatmulK
import Verif.CKernel.GradK
import Verif.CKernel.MatmulGradK
import Verif.CKernel.MeanK
import Verif.CKernel.Props
import Verif.Calls.Model
import Verif.Calls.Spec
import Verif.Calls.Props
import Verif.Params.Model
import Verif.Params.Spec
import Verif.Convert.Props
import Verif.Params.Props
import Verif.Conv.Model
import Verif.Conv.Spec
import Verif.Conv.Lemmas
import Verif.Conv.Lemmas2
import Verif.Conv.Props
import Verif.Conv.Props2
import Verif.Pool.Model
import Verif.Pool.Spec
import Verif.Pool.Props
import Verif.Pool.Props2
import Verif.Types.Model
import Verif.Types.Spec
import Verif.Types.Lemmas
import Verif.Types.Lemmas2
import Verif.Types.Lemmas3
import Verif.Types.Lemmas4
import Verif.Types.Props
import Verif.Unify.Model
import Verif.Unify.Spec
import Verif.Unify.Lemmas
import Verif.Unify.Lemmas2
import Verif.Unify.Lemmas3
import Verif.Unify.Lemmas4
import Verif.Unify.Lemmas5
import Verif.Unify.Lemmas6
import Verif.Unify.Props
import Verif.Unify.Share
import Verif.Unify.ShareSpec
import Verif.Unify.ShareLemmas
import Verif.Unify.ShareLemmas2
import Verif.Unify.ShareProps
import Verif.Rank.Base
import Verif.Rank.Sound
import Verif.Rank.Bcast
import Verif.Rank.BcastLemmas
import Verif.Rank.BcastSound
import Verif.Rank.History
import Verif.Rank.Props
import Verif.Rank.Plans
import Verif.Rank.Extend
import Verif.Rank.Reduce
import Verif.Rank.ReduceSound
import Verif.Rank.ReduceRule
import Verif.Rank.ReduceProps
import Verif.Rank.Concat
import Verif.Rank.ConcatSound
import Verif.Rank.Length
import Verif.Rank.Rules
import Verif.Rank.RulesSound
import Verif.Rank.RulesSound2
import Verif.Rank.FlattenSound
import Verif.Rank.SwapSound
import Verif.Rank.Unary
import Verif.Rank.Where
import Verif.Rank.RulesProps
import Verif.Backends.Model
import Verif.Backends.Spec
import Verif.Backends.Lemmas
import Verif.Backends.Props
import Verif.Backends.Agree
import Verif.Backends.PoolProps
import Verif.Deriv.Spec
import Verif.Deriv.Lemmas
import Verif.Deriv.Model
import Verif.Deriv.Scalar
import Verif.Deriv.Props
import Verif.Deriv.Losses
import Verif.Deriv.Reduce
import Verif.Deriv.ReduceProps
import Verif.Deriv.ProdProps
import Verif.Deriv.CrossEntropy
import Verif.Deriv.CrossEntropyProps
import Verif.Deriv.Linear
import Verif.Deriv.LinearProps
import Verif.Deriv.Struct
import Verif.Deriv.StructProps
import Verif.Labels.Model
import Verif.Labels.Spec
import Verif.Labels.Props
import Verif.Metrics.Model
import Verif.Metrics.Spec
import Verif.Metrics.Lemmas
import Verif.Metrics.Props
import Verif.Auc.Model
import Verif.Auc.Spec
import Verif.Auc.Props
import Verif.Deps.Model
import Verif.Deps.Spec
import Verif.Deps.Lemmas
import Verif.Deps.Globals
import Verif.Deps.History
import Verif.Deps.Props
import Verif.Train.Model
import Verif.Train.Spec
import Verif.Train.Lemmas
import Verif.Train.Geo
import Verif.Train.Main
import Verif.Train.Props
import Verif.Train.ModelSave
import Verif.Train.SaveProps
import Verif.Assigned.Model
import Verif.Assigned.Props
import Verif.Factory.Model
import Verif.Factory.Table
import Verif.Factory.Props
import Verif.Losses.Model
import Verif.Losses.Spec
import Verif.Losses.Lemmas
import Verif.Losses.Props
import Verif.Expand.Model
import Verif.Expand.Spec
import Verif.Expand.Lemmas
import Verif.Expand.Props
import Verif.Channel.Model
import Verif.Channel.Spec
import Verif.Channel.Encode
import Verif.Channel.Protocol
import Verif.Channel.Progress
import Verif.Channel.Alone
import Verif.Channel.Props
import Verif.Recurrent.Model
import Verif.Recurrent.Spec
import Verif.Recurrent.Lemmas
import Verif.Recurrent.Props
import Verif.Refs.Model
import Verif.Refs.Spec
import Verif.Refs.Lemmas
import Verif.Refs.Props
import Verif.Exprs.Model
import Verif.Exprs.Spec
import Verif.Exprs.Lemmas
import Verif.Exprs.Steps
import Verif.Exprs.Merge
import Verif.Exprs.Run
import Verif.Exprs.Props
import Verif.CGen.Model
import Verif.CGen.Spec
import Verif.CGen.Lemmas
import Verif.CGen.Forward
import Verif.CGen.Backward
import Verif.CGen.Whole
import Verif.CGen.Props
import Verif.OpTypes.Model
import Verif.OpTypes.Spec
import Verif.OpTypes.Lemmas
import Verif.OpTypes.Step
import Verif.OpTypes.Ops
import Verif.OpTypes.Props
import Verif.OpTypes.Sums
import Verif.OpTypes.Findings
import Verif.Pullback.Model
import Verif.Pullback.Spec
import Verif.Pullback.Lemmas
import Verif.Pullback.Props
import Verif.ItemTypes.Python
import Verif.ItemTypes.Model
import Verif.ItemTypes.Spec
import Verif.ItemTypes.Lemmas
import Verif.ItemTypes.Props
import Verif.Library.Model
import Verif.Library.Spec
import Verif.Library.NormProps
import Verif.Library.KernelProps
import Verif.Library.DistanceProps
import Verif.Library.Gpr
import Verif.Library.GprProps
import Verif.Library.Props
import Verif.Random.Model
import Verif.Random.Spec
import Verif.Random.Props
import Verif.Dtypes.Model
import Verif.Dtypes.Spec
import Verif.Dtypes.Props
import Verif.Selecting.Model
import Verif.Selecting.Spec
import Verif.Selecting.Props
import Verif.Trainable.Model
import Verif.Trainable.Spec
import Verif.Trainable.Lemmas
import Verif.Trainable.Props
import Verif.Tsne.Model
import Verif.Tsne.Spec
import Verif.Tsne.Lemmas
import Verif.Tsne.Props
import Verif.Sharding.Model
import Verif.Sharding.Spec
import Verif.Sharding.Lemmas
import Verif.Sharding.Props
import Verif.Possible.Model
import Verif.Possible.Spec
import Verif.Possible.Lemmas
import Verif.Possible.Cover
import Verif.Possible.Settle
import Verif.Possible.Broadcast
import Verif.Possible.Props
import Verif.Robust.Model
import Verif.Robust.Spec
import Verif.Robust.Props
import Verif.Listing.Model
import Verif.Listing.Spec
import Verif.Listing.Lemmas
import Verif.Listing.Props
import Verif.Scalars.Python
import Verif.Scalars.Model
import Verif.Scalars.Spec
import Verif.Scalars.Props
import Verif.BcastPos.Model
import Verif.BcastPos.Spec
import Verif.BcastPos.Lemmas
import Verif.BcastPos.Props
import Verif.Inserts.Model
import Verif.Inserts.Spec
import Verif.Inserts.Lemmas
import Verif.Inserts.Props
import Verif.GradTree.Model
import Verif.GradTree.Spec
import Verif.GradTree.Lemmas
import Verif.GradTree.Props
import Verif.PolyFeat.Model
import Verif.PolyFeat.Spec
import Verif.PolyFeat.Lemmas
import Verif.PolyFeat.Props
import Verif.ListTypes.Model
import Verif.ListTypes.Spec
import Verif.ListTypes.Props
import Verif.Initial.Model
import Verif.Initial.Spec
import Verif.Initial.Props
import Verif.Rank.Given
import Verif.Rank.GivenProps
import Verif.Writes.Model
import Verif.Writes.Spec
import Verif.Writes.Lemmas
import Verif.Writes.Props
import Verif.GGen.Model
import Verif.GGen.Spec
import Verif.GGen.Lemmas
import Verif.GGen.Lemmas2
import Verif.GGen.Lemmas3
import Verif.GGen.Lemmas4
import Verif.GGen.Props
import Verif.Templates.Model
import Verif.Templates.Spec
import Verif.Templates.Lemmas
import Verif.Templates.Lemmas2
import Verif.Templates.Props
import Verif.Tables.Model
import Verif.Tables.Spec
import Verif.Tables.Lemmas
import Verif.Tables.Lemmas2
import Verif.Tables.Lemmas3
import Verif.Tables.Props
import Verif.CPrint.Model
import Verif.CPrint.Spec
import Verif.CPrint.Lemmas
import Verif.CPrint.Lemmas2
import Verif.CPrint.Lemmas3
import Verif.CPrint.Props
import Verif.Align.Model
import Verif.Align.Spec
import Verif.Align.Lemmas
import Verif.Align.Props
import Verif.Store.Model
import Verif.Store.Spec
import Verif.Store.Props
import Verif.Walk.Model
import Verif.Walk.Spec
import Verif.Walk.Lemmas
import Verif.Walk.Props
import Verif.Merge.Model
import Verif.Merge.Spec
import Verif.Merge.Props
import Verif.PosEnc.Model
import Verif.PosEnc.Spec
import Verif.PosEnc.Props
import Verif.Vjp.Model
import Verif.Vjp.Spec
import Verif.Vjp.Props
import Verif.GKernel.Model
import Verif.GKernel.Spec
import Verif.GKernel.Props
import Verif.TimeSlots.Targets
