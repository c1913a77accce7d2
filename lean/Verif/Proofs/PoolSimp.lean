import Lean
/-! simp set for projections of updated pool states -/
register_simp_attr pool_simp
