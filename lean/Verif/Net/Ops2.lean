import Verif.Net.Ops

/-!
# Layers with several producers, and all the layers together
-/

namespace Verif.Net
open Prog Layers
variable {K : Type}

section
set_option linter.unusedSectionVars false
variable [Field K] [LinearOrder K] [IsStrictOrderedRing K] [FloorRing K]

/-- the inputs, reshaped -/
def arrs (ss : List Shape) (xs : List (Nd K)) : List (Arr K) := List.zipWith (fun s x => arrOf s x.data) ss xs

theorem reshapes {ss : List Shape} {xs : List (Nd K)} (h : xs.map (fun x => x.data.length) = ss.map Shape.size) :
    (ss.zip xs).mapM (fun p => p.2.reshape3 p.1) = some (arrs ss xs) := by
  induction ss generalizing xs with
  | nil =>
    cases xs with
    | nil => rfl
    | cons => simp at h
  | cons s ss ih =>
    cases xs with
    | nil => simp at h
    | cons x xs =>
      simp only [List.map_cons, List.cons.injEq] at h
      simp only [List.zip_cons_cons, List.mapM_cons, reshape3_eq h.1, ih h.2, Option.bind_eq_bind, Option.bind_some]
      rfl

/-- the producers' buffers feed the reshaped inputs -/
theorem feeds_arrs {m : Mem K} {srcs : List Buf} {ss : List Shape} {xs : List (Nd K)}
    (h : xs.map (fun x => x.data.length) = ss.map Shape.size)
    (hf : List.Forall₂ (fun b x => b ≠ Buf.temp ∧ Holds m b x.data) srcs xs) :
    List.Forall₂ (Feeds m) ((srcs.zip ss).map fun p => (⟨p.1, p.2.C, p.2.H, p.2.W⟩ : Operand)) (arrs ss xs) := by
  induction ss generalizing xs srcs with
  | nil =>
    cases xs with
    | nil => cases hf; exact .nil
    | cons => simp at h
  | cons s ss ih =>
    cases hf with
    | nil => simp at h
    | cons hb hf =>
      simp only [List.map_cons, List.cons.injEq] at h
      simp only [List.zip_cons_cons, List.map_cons, arrs, List.zipWith_cons_cons]
      refine .cons ⟨hb.1, rfl, rfl, rfl, ?_⟩ (ih h.2 hf)
      rw [arrOf_flat h.1]; exact hb.2

theorem mem_arrs {ss : List Shape} {xs : List (Nd K)} {a : Arr K} (h : a ∈ arrs ss xs) :
    ∃ s ∈ ss, a.C = s.C ∧ a.H = s.H ∧ a.W = s.W := by
  induction ss generalizing xs with
  | nil => simp [arrs] at h
  | cons s ss ih =>
    cases xs with
    | nil => simp [arrs] at h
    | cons x xs =>
      simp only [arrs, List.zipWith_cons_cons, List.mem_cons] at h
      rcases h with rfl | h
      · exact ⟨s, by simp, rfl, rfl, rfl⟩
      · obtain ⟨t, ht, e⟩ := ih h
        exact ⟨t, by simp [ht], e⟩

theorem fold_concat (a : Np.Axis) (bs : List (Arr K)) (x : Arr K) :
    (bs.foldl (Np.concat2 a) x).C = (if a = .c then x.C + (bs.map Arr.C).sum else x.C) ∧
    (bs.foldl (Np.concat2 a) x).H = (if a = .h then x.H + (bs.map Arr.H).sum else x.H) ∧
    (bs.foldl (Np.concat2 a) x).W = (if a = .w then x.W + (bs.map Arr.W).sum else x.W) := by
  induction bs generalizing x with
  | nil => cases a <;> simp
  | cons b bs ih =>
    obtain ⟨h1, h2, h3⟩ := ih (Np.concat2 a x b)
    simp only [List.foldl_cons, List.map_cons, List.sum_cons]
    rw [h1, h2, h3]
    cases a <;> simp [Np.concat2, Nat.add_assoc]

theorem arrs_dims {ss : List Shape} {xs : List (Nd K)} (h : ss.length = xs.length) :
    (arrs ss xs).map Arr.C = ss.map Shape.C ∧ (arrs ss xs).map Arr.H = ss.map Shape.H ∧
    (arrs ss xs).map Arr.W = ss.map Shape.W := by
  induction ss generalizing xs with
  | nil => simp [arrs]
  | cons s ss ih =>
    cases xs with
    | nil => simp at h
    | cons x xs =>
      obtain ⟨h1, h2, h3⟩ := ih (xs := xs) (by simpa using h)
      simp only [arrs] at h1 h2 h3
      simp only [arrs, List.zipWith_cons_cons, List.map_cons, h1, h2, h3]
      exact ⟨rfl, rfl, rfl⟩

theorem correct_concat (M : CMath K) (fmt : DataFormat) (a : Np.Axis) (ss : List Shape) (act : K → K) (idx : Nat)
    (ins : List (Nd K)) (hok : (Op.concat a ss act).OK)
    (hx : ins.map (fun x => x.data.length) = ss.map Shape.size) : Correct M fmt (.concat a ss act) idx ins ∧
    ∃ y, (Op.concat a ss act).forward M fmt ins = some y ∧
      y.dims = [(concatShape a ss).C, (concatShape a ss).H, (concatShape a ss).W] := by
  obtain ⟨hlen, hsame⟩ := hok
  match ss, hlen with
  | [_], hlen => simp at hlen
  | s1 :: s2 :: ss, _ =>
  match ins, hx with
  | [_], hx => simp at hx
  | x1 :: x2 :: xs, hx =>
  have hx' := hx
  simp only [List.map_cons, List.cons.injEq] at hx'
  obtain ⟨h1, h2, h3⟩ := hx'
  have hl : ss.length = xs.length := by have := congrArg List.length h3; simpa using this.symm
  set b := arrOf s1 x1.data with hb
  set bs := arrs (s2 :: ss) (x2 :: xs) with hbs
  have harr : arrs (s1 :: s2 :: ss) (x1 :: x2 :: xs) = b :: bs := rfl
  have hso : ∀ y ∈ bs, SameOther a b.C b.H b.W y := by
    intro y hy
    obtain ⟨t, ht, e1, e2, e3⟩ := mem_arrs hy
    have := hsame t (by simp [List.mem_cons.1 ht]) s1 (by simp)
    rw [SameOther, e1, e2, e3]
    exact this
  have hsize : (Op.concat a (s1 :: s2 :: ss) act : Op K).size =
      (concatForward a act b bs).C * (concatForward a act b bs).H * (concatForward a act b bs).W ∧
      (concatShape a (s1 :: s2 :: ss)).C = (concatForward a act b bs).C ∧
      (concatShape a (s1 :: s2 :: ss)).H = (concatForward a act b bs).H ∧
      (concatShape a (s1 :: s2 :: ss)).W = (concatForward a act b bs).W := by
    obtain ⟨f1, f2, f3⟩ := fold_concat a bs b
    obtain ⟨g1, g2, g3⟩ := arrs_dims (ss := s2 :: ss) (xs := x2 :: xs) (by simp [hl])
    have d1 : (concatShape a (s1 :: s2 :: ss)).C = (concatForward a act b bs).C := by
      simp only [concatForward, Arr.map]
      rw [f1, hbs, g1]; cases a <;> rfl
    have d2 : (concatShape a (s1 :: s2 :: ss)).H = (concatForward a act b bs).H := by
      simp only [concatForward, Arr.map]
      rw [f2, hbs, g2]; cases a <;> rfl
    have d3 : (concatShape a (s1 :: s2 :: ss)).W = (concatForward a act b bs).W := by
      simp only [concatForward, Arr.map]
      rw [f3, hbs, g3]; cases a <;> rfl
    refine ⟨?_, d1, d2, d3⟩
    rw [← d1, ← d2, ← d3]; rfl
  have hforward : (Op.concat a (s1 :: s2 :: ss) act).forward M fmt (x1 :: x2 :: xs) =
      some (ofArr (concatForward a act b bs)) := by
    simp only [Op.forward, reshapes hx, Option.bind_eq_bind, Option.bind_some, harr]
    rw [if_pos (by simp [hl])]
    exact if_pos hso
  refine ⟨⟨ofArr (concatForward a act b bs), hforward, ?_, ?_⟩, _, hforward, by
    rw [hsize.2.1, hsize.2.2.1, hsize.2.2.2]; rfl⟩
  · rw [hsize.1]; simp only [ofArr, Arr.flat, tensor3_length]
  · intro m road srcs hr
    have hf := hr.feeds
    have hF := feeds_arrs hx hf
    cases hf with
    | cons hb1 hf =>
    rename_i src1 srcs
    rw [harr] at hF
    simp only [List.zip_cons_cons, List.map_cons] at hF
    cases hF with
    | cons hF1 hF2 =>
    refine ⟨_, rfl, ?_⟩
    have := C15_concatenate a _ road act _ _ b bs _ m rfl hF1 hF2 hso rfl (hsize.1 ▸ hr.temp) (hsize.1 ▸ hr.out)
    obtain ⟨e0, e1, e2, e3⟩ := hsize
    have e4 : (concatShape a (s1 :: s2 :: ss)).size = (Op.concat a (s1 :: s2 :: ss) act : Op K).size := rfl
    simp only [e1, e2, e3, e4, e0]
    exact this

theorem fold_length (g : K → K → K) (t : List K) (ts : List (List K)) (n : Nat)
    (ht : t.length = n) (hts : ∀ u ∈ ts, u.length = n) : (ts.foldl (List.zipWith g) t).length = n := by
  induction ts generalizing t with
  | nil => exact ht
  | cons u ts ih => exact ih _ (by simp [ht, hts u (by simp)]) (fun v hv => hts v (by simp [hv]))

theorem getD_zipWith_fold (g : K → K → K) (t : List K) (ts : List (List K)) (n k : Nat) (hk : k < n)
    (ht : t.length = n) (hts : ∀ u ∈ ts, u.length = n) :
    (ts.foldl (List.zipWith g) t).getD k 0 = ts.foldl (fun s u => g s (u.getD k 0)) (t.getD k 0) := by
  induction ts generalizing t with
  | nil => rfl
  | cons u ts ih =>
    have hu := hts u (by simp)
    simp only [List.foldl_cons]
    rw [ih (List.zipWith g t u) (by simp [ht, hu]) (fun v hv => hts v (by simp [hv]))]
    congr 1
    simp [List.getD, ht, hu, hk]

theorem correct_arith (M : CMath K) (fmt : DataFormat) (op : BOp) (hop : op = .add ∨ op = .sub ∨ op = .mul ∨ op = .div)
    (o : Shape) (ss : List Shape) (cst : Option (Arr K)) (act : K → K) (idx : Nat)
    (ins : List (Nd K)) (hok : (Op.broadcast op o ss cst act).OK)
    (hx : ins.map (fun x => x.data.length) = ss.map Shape.size) : Correct M fmt (.broadcast op o ss cst act) idx ins ∧
    ∃ y, (Op.broadcast op o ss cst act).forward M fmt ins = some y ∧ y.dims = [o.C, o.H, o.W] := by
  have hl : ss.length = ins.length := by have := congrArg List.length hx; simpa using this.symm
  obtain ⟨s, ss, rfl⟩ : ∃ s ss', ss = s :: ss' := by
    cases ss with
    | nil => rcases hop with rfl | rfl | rfl | rfl <;> exact hok.elim
    | cons s ss => exact ⟨s, ss, rfl⟩
  obtain ⟨hadd, rfl, hfit, hcfit⟩ : (op = .add → cst = none) ∧ s = o ∧
        (∀ t ∈ ss, (t.C = 1 ∨ t.C = o.C) ∧ (t.H = 1 ∨ t.H = o.H) ∧ (t.W = 1 ∨ t.W = o.W)) ∧
        ∀ c ∈ cst, fits o.C o.H o.W c := by
    rcases hop with rfl | rfl | rfl | rfl <;> exact hok
  match ins, hx, hl with
  | x :: xs, hx, hl =>
  have hx1 : x.data.length = s.size := by simpa using (List.cons.inj hx).1
  set b := arrOf s x.data with hb
  set bs := arrs ss xs with hbs
  have harr : arrs (s :: ss) (x :: xs) = b :: bs := rfl
  have hfit' : ∀ y ∈ b :: bs, fits s.C s.H s.W y := by
    intro y hy
    rcases List.mem_cons.1 hy with rfl | hy
    · exact ⟨.inr rfl, .inr rfl, .inr rfl⟩
    · obtain ⟨t, ht, e1, e2, e3⟩ := mem_arrs hy
      rw [fits, e1, e2, e3]; exact hfit t ht
  obtain ⟨r, hr⟩ := C14_forward_defined op act s.C s.H s.W b bs cst (fun _ => ⟨rfl, rfl, rfl⟩) hfit' hcfit
  have hforward : (Op.broadcast op s (s :: ss) cst act).forward M fmt (x :: xs) = some (ofArr r) := by
    rcases hop with rfl | rfl | rfl | rfl <;>
    · simp only [Op.forward, reshapes hx, Option.bind_eq_bind, Option.bind_some, harr]
      rw [if_pos hl, hr]
      rfl
  have hsz : (Op.broadcast op s (s :: ss) cst act : Op K).size = s.size := rfl
  have run : ∀ m road srcs, Ready (.broadcast op s (s :: ss) cst act) m idx road srcs (x :: xs) →
      ∃ c, (Op.broadcast op s (s :: ss) cst act).code M fmt idx road srcs = some c ∧ Computes c m (.out road) r.flat := by
    intro m road srcs hR
    have hf := hR.feeds
    have hF := feeds_arrs hx hf
    cases hf with
    | cons hb1 hf =>
    rename_i src1 srcs
    rw [harr] at hF
    simp only [List.zip_cons_cons, List.map_cons] at hF
    cases hF with
    | cons hF1 hF2 =>
    refine ⟨_, rfl, ?_⟩
    refine C14_broadcast op s.C s.H s.W s.size road act _ _ _ b bs cst m r rfl hF1 hF2 ?_ ?_ hfit' hcfit
      ⟨⟨b, by simp, rfl⟩, ⟨b, by simp, rfl⟩, ⟨b, by simp, rfl⟩⟩ hR.temp hR.out hr
    · cases cst with
      | none => exact .none
      | some c => exact .some ⟨by simp, rfl, rfl, rfl, hR.param (.head _)⟩
    · intro h
      rcases hop with rfl | rfl | rfl | rfl <;> simp at h
      exact hadd rfl
  have h4 := (C14_broadcast_forward op act s.C s.H s.W b bs cst r
    (fun h => by rcases hop with rfl | rfl | rfl | rfl <;> simp at h; exact hadd rfl) hfit' hcfit
    ⟨⟨b, by simp, rfl⟩, ⟨b, by simp, rfl⟩, ⟨b, by simp, rfl⟩⟩ hr)
  refine ⟨⟨ofArr r, hforward, ?_, run⟩, _, hforward, ?_⟩
  · rw [ofArr, h4.2.2.2, tensor3_length, hsz]; rfl
  · rw [ofArr, h4.1, h4.2.1, h4.2.2.1]

theorem correct_maxmin (M : CMath K) (fmt : DataFormat) (op : BOp) (hop : op = .max ∨ op = .min)
    (o : Shape) (ss : List Shape) (cst : Option (Arr K)) (act : K → K) (idx : Nat)
    (ins : List (Nd K)) (hok : (Op.broadcast op o ss cst act).OK) (hin : (Op.broadcast op o ss cst act).InputsOK M ins)
    (hx : ins.map (fun x => x.data.length) = ss.map Shape.size) : Correct M fmt (.broadcast op o ss cst act) idx ins := by
  have hl : ss.length = ins.length := by have := congrArg List.length hx; simpa using this.symm
  obtain ⟨s, ss, rfl⟩ : ∃ s ss', ss = s :: ss' := by
    cases ss with
    | nil => rcases hop with rfl | rfl <;> exact hok.elim
    | cons s ss => exact ⟨s, ss, rfl⟩
  obtain ⟨hne, rfl, hall⟩ : ss ≠ [] ∧ cst = none ∧ ∀ t ∈ s :: ss, t = o := by
    rcases hop with rfl | rfl <;> exact hok
  have hdims : ∀ x ∈ ins, ∀ y ∈ ins, x.dims = y.dims := by
    rcases hop with rfl | rfl <;> exact hin
  obtain rfl := hall s (by simp)
  match ss, ins, hne, hx, hl with
  | [], _, hne, _, _ => exact absurd rfl hne
  | _ :: _, [_], _, _, hl => simp at hl
  | s2 :: ss, x :: y :: xs, _, hx, hl =>
  have hlens : ∀ u ∈ x :: y :: xs, u.data.length = s.size := by
    intro u hu
    have h1 : u.data.length ∈ (s :: s2 :: ss).map Shape.size := by
      rw [← hx]; exact List.mem_map.2 ⟨u, hu, rfl⟩
    obtain ⟨t, ht, e⟩ := List.mem_map.1 h1
    rw [← e, hall t ht]
  set b := arrOf s x.data with hb
  set bs := arrs (s2 :: ss) (y :: xs) with hbs
  have harr : arrs (s :: s2 :: ss) (x :: y :: xs) = b :: bs := rfl
  have hbs' : bs = (y :: xs).map fun u => arrOf s u.data := by
    have : ∀ (ts : List Shape) (us : List (Nd K)), ts.length = us.length → (∀ t ∈ ts, t = s) →
        arrs ts us = us.map fun u => arrOf s u.data := by
      intro ts
      induction ts with
      | nil => intro us h _; cases us with | nil => rfl | cons => simp at h
      | cons t ts ih =>
        intro us h ht
        cases us with
        | nil => simp at h
        | cons u us =>
          have := ih us (by simpa using h) (fun t h => ht t (by simp [h]))
          simp only [arrs] at this
          simp only [arrs, List.zipWith_cons_cons, List.map_cons, this, ht t (by simp)]
    exact this _ _ (by simpa using hl) (fun t ht => hall t (by simp [List.mem_cons.1 ht]))
  have hfit : ∀ z ∈ b :: bs, fits s.C s.H s.W z := by
    intro z hz
    rcases List.mem_cons.1 hz with rfl | hz
    · exact ⟨.inr rfl, .inr rfl, .inr rfl⟩
    · obtain ⟨t, ht, e1, e2, e3⟩ := mem_arrs hz
      have := hall t (by simp [List.mem_cons.1 ht])
      subst this
      exact ⟨.inr e1, .inr e2, .inr e3⟩
  set g : K → K → K := op.fn with hg
  have hfold : ((((y :: xs).map Nd.data).foldl (List.zipWith g) x.data).map act) =
      tensor3 s.C s.H s.W (broadcastSpec op act none b bs) := by
    have hts : ∀ u ∈ (y :: xs).map Nd.data, u.length = s.size := by
      intro u hu; obtain ⟨v, hv, rfl⟩ := List.mem_map.1 hu; exact hlens v (by simp [List.mem_cons.1 hv])
    refine List.ext_getElem ?_ ?_
    · simp only [List.length_map, tensor3_length]
      exact fold_length g x.data _ s.size (hlens x (by simp)) hts
    · intro k h1 h2
      rw [tensor3_length] at h2
      obtain ⟨f, i, j, hf, hi, hj, rfl⟩ := at3_surj h2
      rw [tensor3_get _ _ _ _ hf hi hj]
      have e2 := getD_zipWith_fold g x.data ((y :: xs).map Nd.data) s.size _ h2 (hlens x (by simp)) hts
      have h3 : at3 s.H s.W f i j < (((y :: xs).map Nd.data).foldl (List.zipWith g) x.data).length := by
        rw [fold_length g x.data _ s.size (hlens x (by simp)) hts]; exact h2
      rw [List.getElem_map]
      have e3 : (((y :: xs).map Nd.data).foldl (List.zipWith g) x.data)[at3 s.H s.W f i j] =
          (((y :: xs).map Nd.data).foldl (List.zipWith g) x.data).getD (at3 s.H s.W f i j) 0 := by
        simp only [List.getD, List.getElem?_eq_getElem h3, Option.getD_some]
      rw [e3, e2]
      have e4 : ∀ u : Nd K, u.data.getD (at3 s.H s.W f i j) 0 = Np.bget (arrOf s u.data) f i j := by
        intro u; rw [bget_full (x := arrOf s u.data) hf hi hj]; rfl
      have e5 : broadcastSpec op act none b bs f i j =
          act (bs.foldl (fun s y => op.fn s (Np.bget y f i j)) (Np.bget b f i j)) := by
        rcases hop with rfl | rfl <;> rfl
      rw [e5, hbs', List.foldl_map, List.foldl_map]
      simp only [e4]
      rfl
  refine ⟨⟨x.dims, tensor3 s.C s.H s.W (broadcastSpec op act none b bs)⟩, ?_, ?_, ?_⟩
  · rw [← hfold]
    have hd : ∀ z ∈ y :: xs, z.dims = x.dims := fun z hz => hdims z (by simp [List.mem_cons.1 hz]) x (by simp)
    rcases hop with rfl | rfl <;>
    · simp only [Op.forward]
      rw [if_pos hd]
      simp only [List.foldl_map]
      rfl
  · simp only [tensor3_length]; rcases hop with rfl | rfl <;> rfl
  · intro m road srcs hR
    have hf := hR.feeds
    have hF := feeds_arrs hx hf
    cases hf with
    | cons hb1 hf =>
    rename_i src1 srcs
    rw [harr] at hF
    simp only [List.zip_cons_cons, List.map_cons] at hF
    cases hF with
    | cons hF1 hF2 =>
    refine ⟨_, rfl, ?_⟩
    exact C14_broadcast_code op s.C s.H s.W s.size road act _ _ _ b bs none m rfl hF1 hF2 .none
      (fun _ => rfl) hfit (by simp) (by rcases hop with rfl | rfl <;> exact hR.temp)
      (by rcases hop with rfl | rfl <;> exact hR.out)

/-- **Every layer.**  On inputs of the declared sizes, within the conditions `OK` and `InputsOK`, the reference returns an
array of the declared size and the generated code leaves its elements in the layer's buffer. -/
theorem op_correct (M : CMath K) (fmt : DataFormat) (o : Op K) (idx : Nat) (ins : List (Nd K))
    (hs : o.inSizes ≠ []) (hok : o.OK) (hlen : ins.map (fun x => x.data.length) = o.inSizes) (hin : o.InputsOK M ins) :
    Correct M fmt o idx ins := by
  have one : ∀ n, o.inSizes = [n] → ∃ x, ins = [x] ∧ x.data.length = n := by
    intro n hn
    rw [hn] at hlen
    match ins, hlen with
    | [x], h => exact ⟨x, rfl, by simpa using h⟩
  cases o with
  | input r s => exact absurd rfl hs
  | constant v => exact absurd rfl hs
  | dense p n w b act =>
    obtain ⟨x, rfl, hx⟩ := one _ rfl
    exact correct_dense M fmt p n w b act idx x hx
  | activation n act =>
    obtain ⟨x, rfl, hx⟩ := one _ rfl
    exact correct_activation M fmt n act idx x hx
  | flatten s =>
    obtain ⟨x, rfl, hx⟩ := one _ rfl
    exact correct_flatten M fmt s idx x hx
  | matmul C C' H Kd W act =>
    clear hin one
    match ins, hlen with
    | [_], h => simp [Op.inSizes] at h
    | _ :: _ :: _ :: _, h => simp [Op.inSizes] at h
    | [x, y], h =>
      simp only [List.map_cons, List.map_nil, Op.inSizes, List.cons.injEq, and_true] at h
      exact correct_matmul M fmt C C' H Kd W act idx x y hok h.1 h.2
  | gemm tA tB Mm N Kd alpha beta w c act =>
    obtain ⟨x, rfl, hx⟩ := one _ rfl
    exact correct_gemm M fmt tA tB Mm N Kd alpha beta w c act idx x hx
  | conv impl c wt b act =>
    obtain ⟨x, rfl, hx⟩ := one _ rfl
    exact correct_conv M fmt impl c wt b act idx x hok hx
  | maxPool c act =>
    obtain ⟨x, rfl, hx⟩ := one _ rfl
    exact correct_maxPool M fmt c act idx x hok hin hx
  | avgPool c act =>
    obtain ⟨x, rfl, hx⟩ := one _ rfl
    exact correct_avgPool M fmt c act idx x hok hx
  | broadcast op out ss cst act =>
    cases op with
    | add => exact (correct_arith M fmt _ (by simp) out ss cst act idx ins hok hlen).1
    | sub => exact (correct_arith M fmt _ (by simp) out ss cst act idx ins hok hlen).1
    | mul => exact (correct_arith M fmt _ (by simp) out ss cst act idx ins hok hlen).1
    | div => exact (correct_arith M fmt _ (by simp) out ss cst act idx ins hok hlen).1
    | max => exact correct_maxmin M fmt _ (by simp) out ss cst act idx ins hok hin hlen
    | min => exact correct_maxmin M fmt _ (by simp) out ss cst act idx ins hok hin hlen
    | avg => cases ss <;> exact hok.elim
  | concat a ss act => exact (correct_concat M fmt a ss act idx ins hok hlen).1
  | gather a s d ix act =>
    obtain ⟨x, rfl, hx⟩ := one _ rfl
    exact correct_gather M fmt a s d ix act idx x hok hx
  | gatherElements a s out ix act =>
    obtain ⟨x, rfl, hx⟩ := one _ rfl
    exact correct_gatherElements M fmt a s out ix act idx x hok hx
  | tile s rc rh rw' act =>
    obtain ⟨x, rfl, hx⟩ := one _ rfl
    exact correct_tile M fmt s rc rh rw' act idx x hok hx
  | transpose s p act =>
    obtain ⟨x, rfl, hx⟩ := one _ rfl
    exact correct_transpose M fmt s p act idx x hok hx
  | constantPad s p k act =>
    obtain ⟨x, rfl, hx⟩ := one _ rfl
    exact correct_constantPad M fmt s p k act idx x hx
  | pad mode s p act =>
    obtain ⟨x, rfl, hx⟩ := one _ rfl
    exact correct_pad M fmt mode s p act idx x hok hx
  | softmax s axis act =>
    obtain ⟨x, rfl, hx⟩ := one _ rfl
    exact correct_softmax M fmt s axis act idx x hok hx
  | batchNorm s eps scale mean var bias act =>
    obtain ⟨x, rfl, hx⟩ := one _ rfl
    exact correct_batchNorm M fmt s eps scale mean var bias act idx x hx
  | reduce fn c k act =>
    obtain ⟨x, rfl, hx⟩ := one _ rfl
    exact correct_reduce M fmt fn c k act idx x hok hx
  | resize ip mode e C h w act =>
    obtain ⟨x, rfl, hx⟩ := one _ rfl
    exact correct_resize M fmt ip mode e C h w act idx x hok hx

end

end Verif.Net
