import Verif.Spec.FloatArith
import Verif.Proofs.FloatRound

/-! # Specification: conversion to a narrower floating-point type -/

namespace Bezman.Spec

/-- numbers with 64 binary digits, like `long double` on x86 -/
noncomputable abbrev F80 := Fl (FloatArith.binary 64)

/-- conversion to the nearest number with 53 binary digits, like `double` -/
noncomputable def toDouble (x : F80) : F80 := ⟨rndBin 53 x.val⟩

/-- The spline with converted control points. -/
def convCps {K : Type} (conv : K → K) (s : Spline K) : Spline K := { s with cps := s.cps.map conv }

end Bezman.Spec
