import Lean.Meta.Tactic.Simp.RegisterCommand

/-! # A set of definitions to unfold -/

/-- The forms in the schema, unfolded when it is shown that written elements conform to it. -/
register_simp_attr forms
