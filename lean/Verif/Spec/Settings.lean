import Verif.Spec.Glazed

/-!
# Finer settings
-/

namespace Rendering

/-- Settings that cut off no more light than others: paths may be longer, ambient samples are not switched off, `limit_weight` is no larger (and not negative), and bounces at mirrors, panes and dielectrics count no more often.
The numbers of samples don't matter. -/
structure RayTracer.Finer (rt rt' : RayTracer) : Prop where
  deeper : rt.maxDepth ≤ rt'.maxDepth
  ambient : rt.nAmbientSamples = 0 ∨ 0 < rt'.nAmbientSamples
  limit_nonneg : 0 ≤ rt'.limitWeight
  limit : rt'.limitWeight ≤ rt.limitWeight
  counted : rt'.countSpecularBounce ≤ rt.countSpecularBounce

end Rendering
