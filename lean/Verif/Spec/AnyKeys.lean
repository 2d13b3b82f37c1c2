import Verif.Spec.AnyContribute
import Verif.Spec.Keys
/-
What the extraction of keys reads in any bytes: no reader and no error occurs here, only bytes and positions.
-/
namespace ZkSetup

section
variable {F G1 G2 GT : Type}

/-- the bytes are accepted encodings of the points, one after the other -/
def Spans {G : Type} (c : Codec G) : List G → Bytes → Prop
  | [], bs => bs = []
  | p :: ps, bs => ∃ e t, bs = e ++ t ∧ c.Decodes p e ∧ Spans c ps t

/-- the bytes are the number of points in four bytes and accepted encodings of the points -/
def SliceSpans {G : Type} (c : Codec G) (ps : List G) (bs : Bytes) : Prop :=
  ps.length < 2 ^ 32 ∧ ∃ t, bs = beBytes 4 ps.length ++ t ∧ Spans c ps t

/-- The parameters of `f` can be read in the bytes, which stand after the header `h`. Anything may follow. -/
structure P2File.ParamsIn (C : Curve F G1 G2 GT) (f : P2File G1 G2) (h : Phase2.Header) (bs : Bytes) : Prop where
  domain : h.domain = f.domain
  z : h.domain = f.z.length + 1
  pkk : h.witness = f.pkk.length
  bytes : ∃ d1 d2 ez ek t, bs = d1 ++ (d2 ++ (ez ++ (ek ++ t))) ∧ C.c1.Decodes f.delta1 d1 ∧ C.c2.Decodes f.delta2 d2 ∧
    Spans C.c1 f.z ez ∧ Spans C.c1 f.pkk ek

/-- `[δ]1` and `[δ]2` of `f` can be read in the bytes. Anything may follow. -/
def P2File.DeltasIn (C : Curve F G1 G2 GT) (f : P2File G1 G2) (bs : Bytes) : Prop :=
  ∃ d1 d2 t, bs = d1 ++ (d2 ++ t) ∧ C.c1.Decodes f.delta1 d1 ∧ C.c2.Decodes f.delta2 d2

/-- the points of `v` that go into a proving key can be read at the beginning of the bytes -/
def Evals.ProvingIn (C : Curve F G1 G2 GT) (v : Evals G1 G2) (bs : Bytes) : Prop :=
  ∃ x1 x2 x3 sa sb sb2 t, bs = x1 ++ (x2 ++ (x3 ++ (sa ++ (sb ++ (sb2 ++ t))))) ∧ C.c1.Decodes v.alpha1 x1 ∧ C.c1.Decodes v.beta1 x2 ∧
    C.c2.Decodes v.beta2 x3 ∧ SliceSpans C.c1 v.a sa ∧ SliceSpans C.c1 v.b1 sb ∧ SliceSpans C.c2 v.b2 sb2

/-- The points of `v` that go into a verifying key can be read in the bytes: three at the beginning, the others at the position computed from
the number of wires, as a signed 64-bit integer. -/
def Evals.VerifyingIn (C : Curve F G1 G2 GT) (v : Evals G1 G2) (wires : Int) (bs : Bytes) : Prop :=
  (∃ x1 x2 x3 t, bs = x1 ++ (x2 ++ (x3 ++ t)) ∧ C.c1.Decodes v.alpha1 x1 ∧ C.c1.Decodes v.beta1 x2 ∧ C.c2.Decodes v.beta2 x3) ∧
  ∃ pos : Nat, pos < 2 ^ 63 ∧ (2 ^ 64 : Int) ∣ 128 * (wires + 1) + 12 - pos ∧
    ∃ sv sc t, bs.drop pos = sv ++ (sc ++ t) ∧ SliceSpans C.c1 v.vkk sv ∧ SliceSpans C.c1 v.ckk sc

end
end ZkSetup
