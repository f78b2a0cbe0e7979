import Verif.Net.Model
import Verif.Props.Linear
import Verif.Props.Conv
import Verif.Props.Pooling
import Verif.Props.Broadcast
import Verif.Props.Move
import Verif.Props.Pad
import Verif.Props.Layout
import Verif.Props.Norm
import Verif.Props.Reduce
import Verif.Props.Resize3

/-!
# Every layer of a network: the generated code computes the Python reference

One statement for all the layers, assembled from the theorems C08 – C28.
-/

namespace Verif.Net
open Prog Layers
variable {K : Type}

/-! ## The conditions -/

/-- What the constructors check, and the restrictions under which code and reference agree (the cases excluded are
those of the theorems `C09_fails_…`, `C11_fails_…`, `C13_fails_…`, `C21_fails_…`, `C24_fails_…`, `C25_fails_…`,
`C27_fails_…`, `C28_fails_…`, the activation functions that the reference does not apply, and Average, which modifies
its input). -/
def Op.OK [Field K] [LinearOrder K] [FloorRing K] : Op K → Prop
  | .input _ _ | .constant _ | .dense .. | .activation .. | .flatten _ | .gemm .. | .constantPad .. | .batchNorm .. => True
  | .matmul C C' _ _ _ _ => C = C'
  | .conv impl c _ _ _ => c.Accepted ∧ (impl = .loops6 → c.dil = 1)
  | .maxPool c act => act = id ∧ c.Accepted ∧ 1 ≤ c.H ∧ 1 ≤ c.W ∧ c.padTop = c.padLeft ∧ c.padTop < c.pool ∧
      c.padBottom < c.pool ∧ c.padRight < c.pool
  | .avgPool c act => act = id ∧ c.Accepted ∧ 1 ≤ c.H ∧ 1 ≤ c.W ∧ c.padTop = 0 ∧ c.padLeft = 0 ∧
      c.padBottom < c.pool ∧ c.padRight < c.pool
  | .broadcast op o ins cst _ =>
    match op, ins with
    | _, [] => False
    | .avg, _ => False
    | .max, s :: ss => ss ≠ [] ∧ cst = none ∧ ∀ t ∈ s :: ss, t = o
    | .min, s :: ss => ss ≠ [] ∧ cst = none ∧ ∀ t ∈ s :: ss, t = o
    | op, s :: ss => (op = .add → cst = none) ∧ s = o ∧
        (∀ t ∈ ss, (t.C = 1 ∨ t.C = o.C) ∧ (t.H = 1 ∨ t.H = o.H) ∧ (t.W = 1 ∨ t.W = o.W)) ∧
        ∀ c ∈ cst, fits o.C o.H o.W c
  | .concat a ins _ => 2 ≤ ins.length ∧ ∀ s ∈ ins, ∀ t ∈ ins, (a ≠ .c → s.C = t.C) ∧ (a ≠ .h → s.H = t.H) ∧ (a ≠ .w → s.W = t.W)
  | .gather a s _ idx act => act = id ∧ ∀ k ∈ idx, k < Np.dim a (⟨s.C, s.H, s.W, fun _ _ _ => ()⟩ : Arr Unit)
  | .gatherElements a s o idx act => act = id ∧
      (∀ f i j, f < o.C → i < o.H → j < o.W → idx f i j < Np.dim a (⟨s.C, s.H, s.W, fun _ _ _ => ()⟩ : Arr Unit)) ∧
      (a ≠ .c → o.C = s.C) ∧ (a ≠ .h → o.H = s.H) ∧ (a ≠ .w → o.W = s.W)
  | .tile _ _ _ _ act => act = id
  | .transpose _ _ act => act = id
  | .pad mode s p act => (∀ v, act (act v) = act v) ∧ match mode with
    | .edge => 0 < s.C ∧ 0 < s.H ∧ 0 < s.W
    | .reflect => 2 ≤ s.C ∧ 2 ≤ s.H ∧ 2 ≤ s.W
    | .wrap => p.cf < s.C ∧ p.hf < s.H ∧ p.wf < s.W
  | .softmax s axis act => act = id ∧ (softmaxOneDim s.size s.C s.H s.W = true ∨ ∃ a, axis = some a)
  | .reduce fn c _ act => act = id ∧ 1 ≤ c.C ∧ 1 ≤ c.H ∧ 1 ≤ c.W ∧
      (1 ∉ c.axes → 2 ∉ c.axes → 3 ∉ c.axes → c.noop = false → c.axes = []) ∧
      (TwoAxes c → fn = .max ∨ fn = .min → StartInSlice c)
  | .resize (.nearest nm) mode _ _ h w act => act = id ∧ nearestOK mode nm h w ∧ h.Accepted ∧ w.Accepted
  | .resize .linear mode _ _ h w act => act = id ∧ exactMode mode ∧ ((1 < h.inLen ∧ 1 < w.inLen) ∨
      (h.inLen = 1 ∧ w.inLen = 2) ∨ (h.inLen = 2 ∧ w.inLen = 1))
  | .resize (.cubic _) mode _ _ h w act => act = id ∧ exactMode mode ∧ 0 < h.inLen ∧ 0 < w.inLen ∧ (1 < h.inLen ∨ 1 < w.inLen)

/-- The layers whose code reads its own buffer instead of its producer's: they need a producer of which they are the
only consumer. -/
def Op.NeedsOwn : Op K → Prop
  | .flatten _ => True
  | .reduce fn c _ _ => (1 ∉ c.axes ∧ 2 ∉ c.axes ∧ 3 ∉ c.axes ∧ c.noop = true) ∨ (TwoAxes c ∧ (fn = .max ∨ fn = .min))
  | _ => False

/-- Conditions on the tensors a layer receives: maximum pooling starts from `-INFINITY` and its reference pads with
zeros; Maximum and Minimum combine arrays of the same shape. -/
def Op.InputsOK [Zero K] [LinearOrder K] (M : CMath K) : Op K → List (Nd K) → Prop
  | .maxPool c _, ins => ∀ x ∈ ins, (∀ a ∈ x.data, M.ninf < a) ∧ ((c.padTop = 0 ∧ c.padLeft = 0) ∨
      ((c.padRight ≠ 0 ∧ c.padLeft ≠ 0 ∧ c.padTop ≠ 0 ∧ c.padBottom ≠ 0) ∧ ∀ a ∈ x.data, 0 ≤ a))
  | .broadcast .max .., ins => ∀ x ∈ ins, ∀ y ∈ ins, x.dims = y.dims
  | .broadcast .min .., ins => ∀ x ∈ ins, ∀ y ∈ ins, x.dims = y.dims
  | _, _ => True

/-- What the code of a layer finds: its producers' tensors, its parameters, and arrays of sufficient size. -/
structure Ready (o : Op K) (m : Mem K) (idx road : Nat) (srcs : List Buf) (ins : List (Nd K)) : Prop where
  feeds : List.Forall₂ (fun b x => b ≠ Buf.temp ∧ Holds m b x.data) srcs ins
  params : ∀ p ∈ o.params idx, Holds m p.1 p.2
  temp : o.size ≤ m.size .temp
  out : o.size ≤ m.size (.out road)
  patches : ∀ p, o.patches = some p → p ≤ m.size (.out road)
  inTemp : ∀ x ∈ ins, x.data.length ≤ m.size .temp
  own : o.NeedsOwn → srcs = [.out road]
  gemm : o.patches ≠ none → srcs = [.out road] ∨ ∀ k, srcs ≠ [.out k]

theorem Ready.param {o : Op K} {m : Mem K} {idx road : Nat} {srcs : List Buf} {ins : List (Nd K)}
    (h : Ready o m idx road srcs ins) {b : Buf} {t : List K} (hb : (b, t) ∈ o.params idx) : Holds m b t := h.params _ hb

/-! ## Arrays -/

theorem arrOf_flat [Zero K] {s : Shape} {t : List K} (h : t.length = s.size) : (arrOf s t).flat = t := by
  unfold arrOf Arr.flat
  refine List.ext_getElem (by rw [tensor3_length, h]; rfl) ?_
  intro a h1 h2
  rw [tensor3_length] at h1
  obtain ⟨f, i, j, hf, hi, hj, rfl⟩ := at3_surj h1
  rw [tensor3_get _ _ _ _ hf hi hj]
  simp [List.getD, h2]

theorem tensor_getD [Zero K] (t : List K) : tensor t.length (fun a => t.getD a 0) = t := by
  refine List.ext_getElem (by simp) ?_
  intro a h1 h2
  simp [List.getD, h2]

theorem fill_eq {dims : List Nat} {C H W : Nat} {v : Nat → Nat → Nat → Option K} {r : Nat → Nat → Nat → K}
    (h : ∀ f i j, f < C → i < H → j < W → v f i j = some (r f i j)) :
    fill dims C H W v = some ⟨dims, tensor3 C H W r⟩ := by
  have e : tensor3 C H W v = (tensor3 C H W r).map some := by
    rw [tensor3_map]; exact tensor3_congr h
  have e2 : ((tensor3 C H W r).map some).mapM id = some (tensor3 C H W r) := by
    generalize tensor3 C H W r = l
    induction l with
    | nil => rfl
    | cons a l ih => simp [List.mapM_cons, ih]
  unfold fill
  rw [e, e2]; rfl

/-- a memory in which every array holds the same tensor -/
def fullMem [Zero K] (t : List K) (n : Nat) : Mem K := ⟨fun _ => t.length + n, fun _ a => t.getD a 0⟩

theorem fullMem_holds [Zero K] (t : List K) (n : Nat) (b : Buf) : Holds (fullMem t n) b t := by
  refine ⟨by simp [fullMem], fun a h => ?_⟩
  simp [fullMem, List.getD, h]

/-- From "in every memory there is a result" to "there is a result for every memory", the result being determined by the
reference. -/
theorem of_elementwise {C H W : Nat} {v : Nat → Nat → Nat → Option K} {good : Mem K → Buf → Nat → Prop}
    {code : Buf → Nat → Option (Prog K Unit)} {m0 : Mem K} {b0 : Buf} {r0 : Nat} (h0 : good m0 b0 r0)
    (h : ∀ m src road, good m src road → ∃ (c : Prog K Unit) (r : Nat → Nat → Nat → K), code src road = some c ∧
      (∀ f i j, f < C → i < H → j < W → v f i j = some (r f i j)) ∧ Computes c m (.out road) (tensor3 C H W r)) :
    ∃ r : Nat → Nat → Nat → K, (∀ f i j, f < C → i < H → j < W → v f i j = some (r f i j)) ∧
      ∀ m src road, good m src road → ∃ c, code src road = some c ∧ Computes c m (.out road) (tensor3 C H W r) := by
  obtain ⟨_, r, _, hr, _⟩ := h m0 b0 r0 h0
  refine ⟨r, hr, fun m src road hg => ?_⟩
  obtain ⟨c, r', hc, hr', hcomp⟩ := h m src road hg
  refine ⟨c, hc, ?_⟩
  have : tensor3 C H W r = tensor3 C H W r' := tensor3_congr fun f i j hf hi hj => by
    have := (hr f i j hf hi hj).symm.trans (hr' f i j hf hi hj)
    exact Option.some.inj this
  rw [this]; exact hcomp

/-! ## One layer -/

section
set_option linter.unusedSectionVars false
variable [Field K] [LinearOrder K] [IsStrictOrderedRing K] [FloorRing K]

/-- Layer `o` on the inputs `ins`: the reference returns an array of `size` elements, and the generated code, in any
memory that holds the inputs and parameters, leaves these elements in the layer's buffer. -/
def Correct (M : CMath K) (fmt : DataFormat) (o : Op K) (idx : Nat) (ins : List (Nd K)) : Prop :=
  ∃ y, o.forward M fmt ins = some y ∧ y.data.length = o.size ∧
    ∀ m road srcs, Ready o m idx road srcs ins →
      ∃ c, o.code M fmt idx road srcs = some c ∧ Computes c m (.out road) y.data

theorem correct_one {M : CMath K} {fmt : DataFormat} {o : Op K} {idx : Nat} {x y : Nd K}
    (hf : o.forward M fmt [x] = some y) (hl : y.data.length = o.size)
    (h : ∀ m road src, Ready o m idx road [src] [x] → src ≠ .temp → Holds m src x.data →
      ∃ c, o.code M fmt idx road [src] = some c ∧ Computes c m (.out road) y.data) : Correct M fmt o idx [x] := by
  refine ⟨y, hf, hl, fun m road srcs hr => ?_⟩
  have := hr.feeds
  cases this with
  | cons h1 h2 =>
    cases h2
    exact h m road _ hr h1.1 h1.2

theorem correct_dense (M : CMath K) (fmt : DataFormat) (p n : Nat) (w : Nat → Nat → K) (b : Nat → K) (act : K → K)
    (idx : Nat) (x : Nd K) (hx : x.data.length = p) : Correct M fmt (.dense p n w b act) idx [x] := by
  subst hx
  refine correct_one (y := ⟨[n], tensor n (denseForward x.data.length act w b fun a => x.data.getD a 0)⟩) ?_ ?_ ?_
  · simp [Op.forward, Nd.reshape1]
  · simp [Op.size]
  · intro m road src hr hs hh
    refine ⟨_, rfl, ?_⟩
    refine C08_dense _ _ _ _ _ _ w b (fun a => x.data.getD a 0) m hs ?_ ?_ ?_ hr.temp hr.out
    · rw [tensor_getD]; exact hh
    · exact hr.param (.head _)
    · exact hr.param (.tail _ (.head _))

theorem correct_activation (M : CMath K) (fmt : DataFormat) (n : Nat) (act : K → K)
    (idx : Nat) (x : Nd K) (hx : x.data.length = n) : Correct M fmt (.activation n act) idx [x] := by
  subst hx
  refine correct_one (y := ⟨x.dims, x.data.map act⟩) rfl (by simp [Op.size]) ?_
  intro m road src hr hs hh
  obtain ⟨m', e, h, c⟩ := copyMap_holds act rfl hh hr.out
  exact ⟨_, rfl, m', e, h, c.mono (by simp)⟩

theorem correct_flatten (M : CMath K) (fmt : DataFormat) (s : Shape)
    (idx : Nat) (x : Nd K) (hx : x.data.length = s.size) : Correct M fmt (.flatten s) idx [x] := by
  have hfl := arrOf_flat hx
  have key : ∀ m road src, Ready (.flatten s) m idx road [src] [x] → src ≠ .temp → Holds m src x.data →
      ∃ c, (Op.flatten s).code M fmt idx road [src] = some c ∧
        Computes c m (.out road) (flattenForward fmt s.C s.H s.W (arrOf s x.data).v) := by
    intro m road src hr hs hh
    refine ⟨_, rfl, ?_⟩
    have e : src = .out road := by have := hr.own trivial; simpa using this
    subst e
    refine C22_flatten_partial _ _ _ _ _ _ _ m ?_ rfl hr.temp
    rw [← hfl] at hh; exact hh
  cases fmt with
  | last =>
    refine correct_one (y := ⟨[s.H, s.W, s.C], flattenForward .last s.C s.H s.W (arrOf s x.data).v⟩) ?_ ?_ key
    · simp only [Op.forward, Nd.reshape3, hx, if_true]; rfl
    · simp only [flattenForward, tensor3_length, Op.size, Shape.size]; ring
  | first =>
    refine correct_one (y := ⟨[x.data.length], x.data⟩) rfl hx ?_
    have : flattenForward .first s.C s.H s.W (arrOf s x.data).v = x.data := hfl
    rw [this] at key; exact key

theorem correct_matmul (M : CMath K) (fmt : DataFormat) (C C' H Kd W : Nat) (act : K → K)
    (idx : Nat) (x y : Nd K) (hC : C = C') (hx : x.data.length = C * H * Kd) (hy : y.data.length = C' * Kd * W) :
    Correct M fmt (.matmul C C' H Kd W act) idx [x, y] := by
  subst hC
  refine ⟨⟨[1, C, H, W], tensor3 C H W (matmulForward C C Kd act (arrOf ⟨C, H, Kd⟩ x.data).v
    (arrOf ⟨C, Kd, W⟩ y.data).v)⟩, ?_, ?_, ?_⟩
  · have h1 : x.reshape3 ⟨C, H, Kd⟩ = some (arrOf ⟨C, H, Kd⟩ x.data) := if_pos hx
    have h2 : y.reshape3 ⟨C, Kd, W⟩ = some (arrOf ⟨C, Kd, W⟩ y.data) := if_pos hy
    simp only [Op.forward, h1, h2, Option.bind_eq_bind, Option.bind_some, true_or, if_true, ite_self]
    rfl
  · simp only [Op.size, Op.chans, Shape.size, tensor3_length]
  · intro m road srcs hr
    have hf := hr.feeds
    cases hf with
    | cons h1 h2 =>
      cases h2 with
      | cons h3 h4 =>
        cases h4
        have e : (Op.matmul C C H Kd W act).size = W * H * C := by simp only [Op.size, Op.chans, Shape.size]; ring
        refine ⟨_, rfl, C09_matmul_partial _ _ _ _ _ _ _ _ _ _ _ _ h1.1 h3.1 ?_ ?_ rfl (e ▸ hr.temp) (e ▸ hr.out)⟩
        · have := h1.2; rw [← arrOf_flat (s := ⟨C, H, Kd⟩) hx] at this; exact this
        · have := h3.2; rw [← arrOf_flat (s := ⟨C, Kd, W⟩) hy] at this; exact this

theorem matrix_getD {t : List K} {M N : Nat} (h : t.length = M * N) :
    matrix M N (fun i j => t.getD (i * N + j) 0) = t := by
  refine List.ext_getElem (by rw [matrix_length, h]) ?_
  intro a h1 h2
  rw [matrix_length] at h1
  have hN : 0 < N := by rcases Nat.eq_zero_or_pos N with h | h; · subst h; simp at h1
                        · exact h
  obtain ⟨i, j, hi, hj, rfl⟩ : ∃ i j, i < M ∧ j < N ∧ a = i * N + j :=
    ⟨a / N, a % N, Nat.div_lt_of_lt_mul (by rwa [Nat.mul_comm]), Nat.mod_lt _ hN,
      by rw [Nat.mul_comm]; exact (Nat.div_add_mod a N).symm⟩
  rw [matrix_get _ _ _ hi hj]
  simp [List.getD, h2]

theorem correct_gemm (M : CMath K) (fmt : DataFormat) (tA tB : Bool) (Mm N Kd : Nat) (alpha beta : K)
    (w : Nat → Nat → K) (c : Nat → K) (act : K → K) (idx : Nat) (x : Nd K) (hx : x.data.length = Mm * Kd) :
    Correct M fmt (.gemm tA tB Mm N Kd alpha beta w c act) idx [x] := by
  refine correct_one (y := ⟨[Mm, N], matrix Mm N (gemmForward tA tB Kd alpha beta act w (fun _ j => c j)
    fun i j => x.data.getD (i * (if tA then Mm else Kd) + j) 0)⟩) ?_ ?_ ?_
  · have h1 : x.reshape1 (Mm * Kd) = some (fun a => x.data.getD a 0) := if_pos hx
    simp only [Op.forward, h1, Option.bind_eq_bind, Option.bind_some]
    rfl
  · simp [Op.size, Op.chans, Shape.size, matrix_length]
  · intro m road src hr hs hh
    have e : (Op.gemm tA tB Mm N Kd alpha beta w c act).size = Mm * N := by simp [Op.size, Op.chans, Shape.size]
    refine ⟨_, rfl, C10_gemm_partial tA tB Mm N Kd (if tA then Kd else Mm) (if tA then Mm else Kd)
      (if tB then N else Kd) (if tB then Kd else N) (Mm * N) idx road alpha beta act src _ w c m hs ?_ ?_ rfl ?_ ?_ ?_
      (e ▸ hr.temp) (e ▸ hr.out)⟩
    · cases tA <;> rfl
    · cases tB <;> rfl
    · rw [matrix_getD]; · exact hh
      · cases tA <;> simp [hx, Nat.mul_comm]
    · cases tB <;> exact hr.param (.head _)
    · exact hr.param (.tail _ (.head _))

theorem reshape3_eq {s : Shape} {x : Nd K} (h : x.data.length = s.size) : x.reshape3 s = some (arrOf s x.data) := if_pos h

theorem correct_conv (M : CMath K) (fmt : DataFormat) (impl : ConvImpl) (c : ConvP) (wt : Nat → Nat → Nat → Nat → K)
    (b : Nat → K) (act : K → K) (idx : Nat) (x : Nd K) (hok : (Op.conv impl c wt b act).OK)
    (hx : x.data.length = c.inC * c.inH * c.inW) : Correct M fmt (.conv impl c wt b act) idx [x] := by
  have hfl := arrOf_flat (s := ⟨c.inC, c.inH, c.inW⟩) hx
  obtain ⟨r, hr1, hr2⟩ : ∃ r, convForward c act wt b (arrOf ⟨c.inC, c.inH, c.inW⟩ x.data).v = some r ∧
      r.flat.length = c.filters * c.outH * c.outW := by
    obtain ⟨f1, f2⟩ := accepted_fits c hok.1
    obtain ⟨-, hd, hkh, hkw, -, -⟩ := hok.1
    have hfit : (∀ i, i < c.outH → i * c.stride + c.kh ≤ c.inH + c.padTop + c.padBottom) ∧
       (∀ j, j < c.outW → j * c.stride + c.kw ≤ c.inW + c.padLeft + c.padRight) := by
      refine ⟨fun i hi => ?_, fun j hj => ?_⟩
      · have := f1 i hi
        have h2 : (c.kh - 1) * 1 ≤ (c.kh - 1) * c.dil := Nat.mul_le_mul_left _ hd
        omega
      · have := f2 j hj
        have h2 : (c.kw - 1) * 1 ≤ (c.kw - 1) * c.dil := Nat.mul_le_mul_left _ hd
        omega
    exact ⟨_, if_pos hfit, tensor3_length ..⟩
  refine correct_one (y := ofArr r) ?_ ?_ ?_
  · simp only [Op.forward, reshape3_eq (s := ⟨c.inC, c.inH, c.inW⟩) hx, Option.bind_eq_bind, Option.bind_some, hr1]
    rfl
  · rw [ofArr, hr2]; simp [Op.size, Op.chans, Shape.size]
  · intro m road src hr hs hh
    have e : (Op.conv impl c wt b act).size = c.filters * c.outH * c.outW := by simp [Op.size, Op.chans, Shape.size]
    have hh' : Holds m src (tensor3 c.inC c.inH c.inW (arrOf ⟨c.inC, c.inH, c.inW⟩ x.data).v) := by
      rw [← hfl] at hh; exact hh
    cases impl with
    | loops6 =>
      refine ⟨_, rfl, ?_⟩
      obtain ⟨r', h1, h2⟩ := C11_conv6_partial c (c.filters * c.outH * c.outW) idx road act src wt b _ m hok.1
        (hok.2 rfl) hs hh' (hr.param (.head _)) (hr.param (.tail _ (.head _))) rfl (e ▸ hr.temp) (e ▸ hr.out)
      cases Option.some.inj (hr1.symm.trans h1)
      exact h2
    | stdGemm =>
      refine ⟨_, rfl, ?_⟩
      have hsrc : src = .out road ∨ ((∀ k, src ≠ .out k) ∧ src ≠ .temp) := by
        rcases hr.gemm (by simp [Op.patches]) with h | h
        · left; simpa using h
        · right; exact ⟨fun k hk => h k (by rw [hk]), hs⟩
      obtain ⟨r', h1, h2⟩ := C12_std_gemm_forward c (c.filters * c.outH * c.outW) idx road act src wt b _ m hok.1
        hsrc hh' (hr.param (.head _)) (hr.param (.tail _ (.head _))) rfl (hx ▸ hr.inTemp x (by simp)) (e ▸ hr.temp)
        (e ▸ hr.out) (hr.patches _ rfl)
      cases Option.some.inj (hr1.symm.trans h1)
      exact h2

/-- layers whose reference fills the output element by element -/
theorem correct_fill {M : CMath K} {fmt : DataFormat} {o : Op K} {idx : Nat} {x : Nd K} {dims : List Nat} {s : Shape}
    {v : Nat → Nat → Nat → Option K} (hx : x.data.length = s.size) {C H W : Nat}
    (hf : o.forward M fmt [x] = fill dims C H W v) (hl : o.size = C * H * W) (good : Buf → Nat → Prop)
    {b0 : Buf} {r0 : Nat} (h0 : good b0 r0) (hb0 : b0 ≠ .temp)
    (hgood : ∀ m road src, Ready o m idx road [src] [x] → good src road)
    (h : ∀ m src road, src ≠ .temp → Holds m src (tensor3 s.C s.H s.W (arrOf s x.data).v) → good src road →
      C * H * W ≤ m.size .temp → C * H * W ≤ m.size (.out road) →
      ∃ (c : Prog K Unit) (r : Nat → Nat → Nat → K), o.code M fmt idx road [src] = some c ∧
      (∀ f i j, f < C → i < H → j < W → v f i j = some (r f i j)) ∧ Computes c m (.out road) (tensor3 C H W r)) :
    Correct M fmt o idx [x] := by
  have hfl := arrOf_flat hx
  obtain ⟨r, hr, hc⟩ := of_elementwise (C := C) (H := H) (W := W) (v := v)
    (good := fun m src road => src ≠ .temp ∧ Holds m src (tensor3 s.C s.H s.W (arrOf s x.data).v) ∧ good src road ∧
      C * H * W ≤ m.size .temp ∧ C * H * W ≤ m.size (.out road))
    (code := fun src road => o.code M fmt idx road [src]) (m0 := fullMem x.data (C * H * W)) (b0 := b0) (r0 := r0)
    ⟨hb0, by rw [show tensor3 s.C s.H s.W (arrOf s x.data).v = x.data from hfl]; exact fullMem_holds _ _ _, h0,
      by simp [fullMem], by simp [fullMem]⟩ (fun m src road ⟨h1, h2, h3, h4, h5⟩ => h m src road h1 h2 h3 h4 h5)
  refine correct_one (y := ⟨dims, tensor3 C H W r⟩) (hf.trans (fill_eq hr)) (by rw [tensor3_length, hl]) ?_
  intro m road src hR hs hh
  refine hc m src road ⟨hs, ?_, hgood m road src hR, hl ▸ hR.temp, hl ▸ hR.out⟩
  rw [show tensor3 s.C s.H s.W (arrOf s x.data).v = x.data from hfl]; exact hh

theorem arrOf_mem {s : Shape} {t : List K} (h : t.length = s.size) {f i j : Nat} (hf : f < s.C) (hi : i < s.H)
    (hj : j < s.W) : (arrOf s t).v f i j ∈ t := by
  have : at3 s.H s.W f i j < t.length := by rw [h]; exact at3_lt hf hi hj
  simp only [arrOf, List.getD, List.getElem?_eq_getElem this, Option.getD_some]
  exact List.getElem_mem this

theorem correct_maxPool (M : CMath K) (fmt : DataFormat) (c : PoolP) (act : K → K) (idx : Nat) (x : Nd K)
    (hok : (Op.maxPool c act).OK) (hin : (Op.maxPool c act).InputsOK M [x])
    (hx : x.data.length = c.C * c.H * c.W) : Correct M fmt (.maxPool c act) idx [x] := by
  obtain ⟨rfl, hacc, hH, hW, hpad, h1, h3, h4⟩ := hok
  obtain ⟨hinf, hp⟩ := hin x (by simp)
  refine correct_fill (s := ⟨c.C, c.H, c.W⟩) (v := maxPoolForward c (arrOf ⟨c.C, c.H, c.W⟩ x.data).v)
    (dims := [c.C, c.Ho, c.Wo]) (C := c.C) (H := c.Ho) (W := c.Wo) hx ?_ (by simp only [Op.size, Op.chans, Shape.size]) (fun _ _ => True)
    (b0 := .input) (r0 := 0) trivial (by simp) (fun _ _ _ _ => trivial) ?_
  · simp only [Op.forward, reshape3_eq (s := ⟨c.C, c.H, c.W⟩) hx, Option.bind_eq_bind, Option.bind_some]
  · intro m src road hs hh _ ht ho
    obtain ⟨r, h5, h6⟩ := C13_max_partial c _ road M.ninf id src _ m hacc hH hW hpad h1 h3 h4
      (hp.imp_right fun ⟨a, b⟩ => ⟨a, fun f i j hf hi hj => b _ (arrOf_mem (s := ⟨c.C, c.H, c.W⟩) hx hf hi hj)⟩)
      (fun f i j hf hi hj => hinf _ (arrOf_mem (s := ⟨c.C, c.H, c.W⟩) hx hf hi hj)) hs hh rfl ht ho
    exact ⟨_, r, rfl, h5, h6⟩

theorem correct_avgPool (M : CMath K) (fmt : DataFormat) (c : PoolP) (act : K → K) (idx : Nat) (x : Nd K)
    (hok : (Op.avgPool c act).OK)
    (hx : x.data.length = c.C * c.H * c.W) : Correct M fmt (.avgPool c act) idx [x] := by
  obtain ⟨rfl, hacc, hH, hW, hp, hp', h3, h4⟩ := hok
  refine correct_fill (s := ⟨c.C, c.H, c.W⟩) (v := avgPoolForward c (arrOf ⟨c.C, c.H, c.W⟩ x.data).v)
    (dims := [c.C, c.Ho, c.Wo]) (C := c.C) (H := c.Ho) (W := c.Wo) hx ?_ (by simp only [Op.size, Op.chans, Shape.size]) (fun _ _ => True)
    (b0 := .input) (r0 := 0) trivial (by simp) (fun _ _ _ _ => trivial) ?_
  · simp only [Op.forward, reshape3_eq (s := ⟨c.C, c.H, c.W⟩) hx, Option.bind_eq_bind, Option.bind_some]
  · intro m src road hs hh _ ht ho
    obtain ⟨r, h5, h6⟩ := C13_avg_partial c _ road id src _ m hacc hH hW ⟨hp, hp'⟩ h3 h4 hs hh rfl ht ho
    exact ⟨_, r, rfl, h5, h6⟩

theorem correct_reduce (M : CMath K) (fmt : DataFormat) (fn : RFunc) (c : RedP) (k : Bool) (act : K → K) (idx : Nat)
    (x : Nd K) (hok : (Op.reduce fn c k act).OK)
    (hx : x.data.length = c.C * c.H * c.W) : Correct M fmt (.reduce fn c k act) idx [x] := by
  obtain ⟨rfl, hC, hH, hW, hno, htw⟩ := hok
  refine correct_fill (s := ⟨c.C, c.H, c.W⟩) (v := reduceForward fn c (arrOf ⟨c.C, c.H, c.W⟩ x.data).v)
    (dims := reduceDims c k) (C := c.oC) (H := c.oH) (W := c.oW) hx ?_ (by simp only [Op.size, Op.chans, Shape.size])
    (fun src road => (Op.reduce fn c k id).NeedsOwn (K := K) → src = .out road)
    (b0 := .out 0) (r0 := 0) (fun _ => rfl) (by simp) (fun m road src hr hn => by simpa using hr.own hn) ?_
  · simp only [Op.forward, reshape3_eq (s := ⟨c.C, c.H, c.W⟩) hx, Option.bind_eq_bind, Option.bind_some]
  · intro m src road hs hh hg ht ho
    obtain ⟨r, h5, h6⟩ := C24_reduce_partial fn c _ road id src _ m hC hH hW hno
      (fun a b d e => hg (.inl ⟨a, b, d, e⟩)) (fun a b => ⟨hg (.inr ⟨a, b⟩), htw a b⟩) hs hh rfl ht ho
    exact ⟨_, r, rfl, h5, h6⟩

theorem correct_resize (M : CMath K) (fmt : DataFormat) (ip : Interp K) (mode : CoordMode) (e : K) (C : Nat)
    (h w : RAxis K) (act : K → K) (idx : Nat) (x : Nd K) (hok : (Op.resize ip mode e C h w act).OK)
    (hx : x.data.length = C * h.inLen * w.inLen) : Correct M fmt (.resize ip mode e C h w act) idx [x] := by
  have hf : (Op.resize ip mode e C h w act).forward M fmt [x] = fill [C, h.outLen, w.outLen] C h.outLen w.outLen (match ip with
      | .nearest nm => nearestForward e mode nm h w (arrOf ⟨C, h.inLen, w.inLen⟩ x.data).v
      | .linear => linearForward e mode h w (arrOf ⟨C, h.inLen, w.inLen⟩ x.data).v
      | .cubic a => cubicForward a e mode h w (arrOf ⟨C, h.inLen, w.inLen⟩ x.data).v) := by
    cases ip <;>
    simp only [Op.forward, reshape3_eq (s := ⟨C, h.inLen, w.inLen⟩) hx, Option.bind_eq_bind, Option.bind_some]
  refine correct_fill (s := ⟨C, h.inLen, w.inLen⟩) hx hf (by simp only [Op.size, Op.chans, Shape.size]) (fun _ _ => True)
    (b0 := .input) (r0 := 0) trivial (by simp) (fun _ _ _ _ => trivial) ?_
  intro m src road hs hh _ ht ho
  cases ip with
  | nearest nm =>
    obtain ⟨rfl, hn, ha, hb⟩ := hok
    obtain ⟨code, r, h1, h2, -, h3⟩ := C27_nearest_partial mode nm C road h w id e src _ m hs hn ha hb hh ht ho
    exact ⟨code, r, h1, h2, h3⟩
  | linear =>
    obtain ⟨rfl, hm, hl⟩ := hok
    rcases hl with ⟨ha, hb⟩ | hl
    · exact C28_linear_partial mode C road h w id e src _ m hs hm ha hb hh ht ho
    · exact C28_linear1_partial mode C road h w id e src _ m hs hm hl hh ht ho
  | cubic a =>
    obtain ⟨rfl, hm, ha, hb, hbig⟩ := hok
    exact C28_cubic_partial a mode C road h w id e src _ m hs hm ha hb hbig hh ht ho

theorem arrOf_dim (a : Np.Axis) (s : Shape) (t : List K) :
    Np.dim a (arrOf s t) = Np.dim a (⟨s.C, s.H, s.W, fun _ _ _ => ()⟩ : Arr Unit) := by cases a <;> rfl

theorem map_id_flat (r : Arr K) : (r.map id).flat = r.flat := by
  simp only [Arr.flat, Arr.map]; exact tensor3_congr fun _ _ _ _ _ _ => rfl

theorem correct_gather (M : CMath K) (fmt : DataFormat) (a : Np.Axis) (s : Shape) (d ix : List Nat) (act : K → K)
    (idx : Nat) (x : Nd K) (hok : (Op.gather a s d ix act).OK) (hx : x.data.length = s.size) :
    Correct M fmt (.gather a s d ix act) idx [x] := by
  obtain ⟨rfl, hi⟩ := hok
  have hi' : ∀ k ∈ ix, k < Np.dim a (arrOf s x.data) := by rw [arrOf_dim]; exact hi
  have e : (Op.gather a s d ix id : Op K).size =
      (Np.take a ix (arrOf s x.data)).C * (Np.take a ix (arrOf s x.data)).H * (Np.take a ix (arrOf s x.data)).W := by
    cases a <;> rfl
  refine correct_one (y := ⟨takeDims a s d, (Np.take a ix (arrOf s x.data)).flat⟩) ?_ ?_ ?_
  · simp only [Op.forward, reshape3_eq hx, Option.bind_eq_bind, Option.bind_some, if_pos hi']
    rfl
  · rw [e]; simp only [Arr.flat, tensor3_length]
  · intro m road src hr hs hh
    refine ⟨_, rfl, ?_⟩
    have := C16_gather a ix _ road id src (arrOf s x.data) _ m rfl hs (by rw [arrOf_flat hx]; exact hh) hi' rfl
      (e ▸ hr.temp) (e ▸ hr.out)
    rw [map_id_flat] at this
    cases a <;> exact this

theorem correct_gatherElements (M : CMath K) (fmt : DataFormat) (a : Np.Axis) (s o : Shape) (ix : Nat → Nat → Nat → Nat)
    (act : K → K) (idx : Nat) (x : Nd K) (hok : (Op.gatherElements a s o ix act).OK) (hx : x.data.length = s.size) :
    Correct M fmt (.gatherElements a s o ix act) idx [x] := by
  obtain ⟨rfl, hi, hC, hH, hW⟩ := hok
  refine correct_one (y := ofArr (gatherElementsForward a ix o.C o.H o.W (arrOf s x.data))) ?_ ?_ ?_
  · simp only [Op.forward, reshape3_eq hx, Option.bind_eq_bind, Option.bind_some]
    rfl
  · simp only [ofArr, Arr.flat, tensor3_length]; rfl
  · intro m road src hr hs hh
    refine ⟨_, rfl, ?_⟩
    have := C17_gather_elements a ix o.C o.H o.W o.size road id src (arrOf s x.data) m hs
      (by rw [arrOf_flat hx]; exact hh) (by rw [arrOf_dim]; exact hi) hC hH hW rfl hr.temp hr.out
    rw [map_id_flat] at this
    exact this

theorem correct_tile (M : CMath K) (fmt : DataFormat) (s : Shape) (rc rh rw' : Nat)
    (act : K → K) (idx : Nat) (x : Nd K) (hok : (Op.tile s rc rh rw' act).OK) (hx : x.data.length = s.size) :
    Correct M fmt (.tile s rc rh rw' act) idx [x] := by
  have : act = id := hok
  subst this
  refine correct_one (y := ofArr (Np.tile rc rh rw' (arrOf s x.data))) ?_ ?_ ?_
  · simp only [Op.forward, reshape3_eq hx, Option.bind_eq_bind, Option.bind_some]
    rfl
  · simp only [ofArr, Arr.flat, tensor3_length]; rfl
  · intro m road src hr hs hh
    refine ⟨_, rfl, ?_⟩
    have := C18_tile rc rh rw' _ road id src (arrOf s x.data) m hs
      (by rw [arrOf_flat hx]; exact hh) rfl hr.temp hr.out
    rw [map_id_flat] at this
    exact this

theorem correct_transpose (M : CMath K) (fmt : DataFormat) (s : Shape) (p : Perm3)
    (act : K → K) (idx : Nat) (x : Nd K) (hok : (Op.transpose s p act).OK) (hx : x.data.length = s.size) :
    Correct M fmt (.transpose s p act) idx [x] := by
  have : act = id := hok
  subst this
  let z : Arr K := ⟨(transposeShape p s).C, (transposeShape p s).H, (transposeShape p s).W, fun f i j =>
    let ix : Np.Axis → Nat := fun d => if d = p.axis .c then f else if d = p.axis .h then i else j
    (arrOf s x.data).v (ix .c) (ix .h) (ix .w)⟩
  have hz : IsTranspose p (arrOf s x.data) z := by
    refine ⟨?_, ?_, ?_, fun ix _ => ?_⟩
    · cases p <;> rfl
    · cases p <;> rfl
    · cases p <;> rfl
    · cases p <;> rfl
  refine correct_one (y := ⟨[1, z.C, z.H, z.W], z.flat⟩) ?_ ?_ ?_
  · simp only [Op.forward, reshape3_eq hx, Option.bind_eq_bind, Option.bind_some]
    rfl
  · simp only [Arr.flat, tensor3_length]; rfl
  · intro m road src hr hs hh
    refine ⟨_, rfl, ?_⟩
    have := C19_transpose p _ road id src (arrOf s x.data) z m hs
      (by rw [arrOf_flat hx]; exact hh) hz rfl hr.temp hr.out
    rw [map_id_flat] at this
    exact this

theorem correct_constantPad (M : CMath K) (fmt : DataFormat) (s : Shape) (p : Pads3) (k : K)
    (act : K → K) (idx : Nat) (x : Nd K) (hx : x.data.length = s.size) :
    Correct M fmt (.constantPad s p k act) idx [x] := by
  refine correct_one (y := ofArr ((Np.padConstant p.cf p.cb p.hf p.hb p.wf p.wb k (arrOf s x.data)).map act)) ?_ ?_ ?_
  · simp only [Op.forward, reshape3_eq hx, Option.bind_eq_bind, Option.bind_some]
    rfl
  · simp only [ofArr, Arr.flat, tensor3_length]; rfl
  · intro m road src hr hs hh
    exact ⟨_, rfl, C20_constant_pad p.cf p.cb p.hf p.hb p.wf p.wb _ road k act src (arrOf s x.data) _ m rfl hs
      (by rw [arrOf_flat hx]; exact hh) rfl hr.temp hr.out⟩

theorem correct_pad (M : CMath K) (fmt : DataFormat) (mode : PadMode) (s : Shape) (p : Pads3)
    (act : K → K) (idx : Nat) (x : Nd K) (hok : (Op.pad mode s p act).OK) (hx : x.data.length = s.size) :
    Correct M fmt (.pad mode s p act) idx [x] := by
  obtain ⟨hact, h3⟩ := hok
  refine correct_one (y := ofArr ((Np.padBy mode.np p.cf p.cb p.hf p.hb p.wf p.wb (arrOf s x.data)).map act)) ?_ ?_ ?_
  · simp only [Op.forward, reshape3_eq hx, Option.bind_eq_bind, Option.bind_some]
    rfl
  · simp only [ofArr, Arr.flat, tensor3_length]; rfl
  · intro m road src hr hs hh
    refine ⟨_, rfl, ?_⟩
    have hh' : Holds m src (arrOf s x.data).flat := by rw [arrOf_flat hx]; exact hh
    cases mode with
    | edge =>
      exact C21_edge_pad_partial p.cf p.cb p.hf p.hb p.wf p.wb _ road act src (arrOf s x.data) m hact h3.1
        h3.2.1 h3.2.2 hs hh' rfl hr.temp hr.out
    | reflect =>
      exact C21_reflect_pad_partial p.cf p.cb p.hf p.hb p.wf p.wb _ road act src (arrOf s x.data) m hact h3.1
        h3.2.1 h3.2.2 hs hh' rfl hr.temp hr.out
    | wrap =>
      exact C21_wrap_pad_partial p.cf p.cb p.hf p.hb p.wf p.wb _ road act src (arrOf s x.data) m hact h3.1
        h3.2.1 h3.2.2 hs hh' rfl hr.temp hr.out

theorem correct_batchNorm (M : CMath K) (fmt : DataFormat) (s : Shape) (eps : K) (scale mean var bias : Nat → K)
    (act : K → K) (idx : Nat) (x : Nd K) (hx : x.data.length = s.size) :
    Correct M fmt (.batchNorm s eps scale mean var bias act) idx [x] := by
  refine correct_one (y := ofArr ⟨s.C, s.H, s.W, batchNormForward M.sqrt eps act scale mean var bias
    (arrOf s x.data).v⟩) ?_ ?_ ?_
  · simp only [Op.forward, reshape3_eq hx, Option.bind_eq_bind, Option.bind_some]
    rfl
  · simp only [ofArr, Arr.flat, tensor3_length]; rfl
  · intro m road src hr hs hh
    refine ⟨_, rfl, C26_batch_norm M.sqrt s.C s.H s.W idx road eps act src scale mean var bias (arrOf s x.data).v m ?_
      (hr.param (.head _)) (hr.param (.tail _ (.head _))) (hr.param (.tail _ (.tail _ (.head _))))
      (hr.param (.tail _ (.tail _ (.tail _ (.head _))))) hr.out⟩
    rw [← arrOf_flat hx] at hh; exact hh

theorem correct_softmax (M : CMath K) (fmt : DataFormat) (s : Shape) (axis : Option Axis)
    (act : K → K) (idx : Nat) (x : Nd K) (hok : (Op.softmax s axis act).OK) (hx : x.data.length = s.size) :
    Correct M fmt (.softmax s axis act) idx [x] := by
  obtain ⟨rfl, hax⟩ := hok
  by_cases h1 : softmaxOneDim s.size s.C s.H s.W = true
  · refine correct_one (y := ⟨[x.data.length], tensor x.data.length (softmaxForward1 M.exp x.data.length fun a => x.data.getD a 0)⟩)
      (by simp only [Op.forward, h1, if_true]) (by simp only [tensor_length, hx]; rfl) ?_
    intro m road src hr hs hh
    refine ⟨softmaxCode1 M.exp s.size id src road, by simp [Op.code, softmaxCode, h1], ?_⟩
    have e : x.data = tensor s.size fun a => x.data.getD a 0 := by
      refine List.ext_getElem (by rw [tensor_length, hx]) fun k h1 h2 => ?_
      rw [tensor_get]; simp [h1]
    have := softmax1_computes M.exp s.size road id src (fun a => x.data.getD a 0) m (e ▸ hh) hr.out
    rw [hx]; exact this
  · obtain ⟨a, rfl⟩ := hax.resolve_left h1
    have hh' : ∀ {m : Mem K} {src}, Holds m src x.data → Holds m src (tensor3 s.C s.H s.W (arrOf s x.data).v) := by
      intro m src h; rw [← arrOf_flat hx] at h; exact h
    have key := fun m road src => C25_softmax_partial M.exp s.C s.H s.W road a src (arrOf s x.data).v m
    have hax : softmaxOneDim (s.C * s.H * s.W) s.C s.H s.W = true → axisDim s.C s.H s.W a = s.C * s.H * s.W := fun h => absurd h h1
    obtain ⟨_, _, _, f1, f3⟩ := key (fullMem x.data s.size) 0 .input (by simp) (hh' (fullMem_holds _ _ _)) hax
      (by simp [fullMem, Shape.size]) (by simp [fullMem, Shape.size])
    have run : ∀ m road src, Ready (.softmax s (some a) id) m idx road [src] [x] → src ≠ .temp → Holds m src x.data →
        ∃ c, (Op.softmax s (some a) id).code M fmt idx road [src] = some c ∧
          Computes c m (.out road) (tensor3 s.C s.H s.W (softmaxSpec M.exp s.C s.H s.W a (arrOf s x.data).v)) := by
      intro m road src hr hs hh
      obtain ⟨c, h1, h2, _⟩ := key m road src hs (hh' hh) hax hr.temp hr.out
      exact ⟨c, h1, h2⟩
    refine correct_one (y := ⟨[1, s.C, s.H, s.W], tensor3 s.C s.H s.W (softmaxSpec M.exp s.C s.H s.W a (arrOf s x.data).v)⟩)
      ?_ (by simp only [tensor3_length]; rfl) run
    simp only [Op.forward, h1, reshape3_eq hx, Option.bind_eq_bind, Option.bind_some]
    have : tensor3 s.C s.H s.W (softmaxForward3 M.exp s.C s.H s.W a (arrOf s x.data).v) =
      tensor3 s.C s.H s.W (softmaxSpec M.exp s.C s.H s.W a (arrOf s x.data).v) :=
      tensor3_congr fun f i j hf hi hj => f3 (by simpa [Shape.size] using h1) f i j hf hi hj
    rw [this]; rfl

end

end Verif.Net
