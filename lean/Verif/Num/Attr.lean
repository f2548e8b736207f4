import Lean.Meta.Tactic.Simp.RegisterCommand

/-! Simp sets used to move between the `Dbl` and the `ℝ` reading of the numeric model. -/

/-- Rewrites that push `Dbl.fin` outwards (finite arithmetic stays finite). -/
register_simp_attr dblfin

/-- Rewrites that read the arithmetic interface at `ℝ` as ordinary real arithmetic. -/
register_simp_attr realnum
