import Lean.Meta.Tactic.Simp.RegisterCommand

/-!
# A set of rewrite rules

`builds`: what does not depend on debug assertions is the same in both builds.
-/

/-- Rules that replace the debug build by the release build. -/
register_simp_attr builds
