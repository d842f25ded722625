import Verif.Model.OddCopy
import Verif.Model.IntSizes
import Verif.Props.DecodeArgs

set_option autoImplicit false

/-!
# C128: Copies of instances with unusual box sizes
-/

open Spec

namespace Props

open Shell NewArgs DecodeArgs

private theorem mem_fields {s : Raw} {a : Cell} : a ∈ s.fields ↔ a.1 < s.made.size ∧ a.2 < s.made.size := by
  unfold Raw.fields Coordinates.product
  simp only [List.mem_flatMap, List.mem_map, List.mem_range]
  constructor
  · rintro ⟨i, hi, j, hj, rfl⟩; exact ⟨hi, hj⟩
  · rintro ⟨h1, h2⟩; exact ⟨a.1, h1, a.2, h2, rfl⟩

private theorem numbers_ok (s : Raw) (l : List Cell) : ∀ t : Raw, (∀ a ∈ l, a.1 < t.made.size ∧ a.2 < t.made.size) →
    copyNumbers s l t = .ok { t with num := fun b => if b ∈ l then s.num b else t.num b } := by
  induction l with
  | nil => intro t _; simp [copyNumbers]
  | cons a l ih =>
    intro t h
    unfold copyNumbers
    rw [if_pos (h a (by simp)), ih ⟨t.made, fun b => if b = a then s.num a else t.num b, t.cand⟩ (fun b hb => h b (by simp [hb]))]
    simp only [Except.ok.injEq, Raw.mk.injEq, true_and, and_true]
    funext b
    by_cases h1 : b ∈ l
    · simp [h1]
    · by_cases h2 : b = a
      · simp [h2]
      · simp [h1, h2]

private theorem candidates_ok (s : Raw) (l : List Cell) : ∀ t : Raw, (∀ a ∈ l, a.1 < t.made.size ∧ a.2 < t.made.size) →
    copyCandidates s l t = .ok { t with cand := fun b => if b ∈ l then s.cand b else t.cand b } := by
  induction l with
  | nil => intro t _; simp [copyCandidates]
  | cons a l ih =>
    intro t h
    unfold copyCandidates
    rw [if_pos (h a (by simp)), ih ⟨t.made, t.num, fun b => if b = a then s.cand a else t.cand b⟩ (fun b hb => h b (by simp [hb]))]
    simp only [Except.ok.injEq, Raw.mk.injEq, true_and]
    funext b
    by_cases h1 : b ∈ l
    · simp [h1]
    · by_cases h2 : b = a
      · simp [h2]
      · simp [h1, h2]

private theorem new_sizes (w h : Int) : ErrorText.forget (NewArgs.new (.arg (.value (.ints .tuple [w, h])))) = .ok ⟨w, h, (w * h).toNat⟩ := by
  rw [(C125_builds _ _).2 (.sequence _ w h (.tuple _))]
  rfl

/-- **C128** An instance made from a tuple or list of two integers of any sign: the copy has the same box sizes, rows and numbers, and the same
candidates if they are asked for, otherwise none. -/
theorem C128_copy (a : Arg Val) (m : Made) (hm : NewArgs.new (.arg a) = .ok m) (s : Raw) (hs : s.made = m) (c : Bool) :
    ∃ t, s.copy c = .ok t ∧ t.made = m ∧ ∀ i j, i < m.size → j < m.size →
      t.num (i, j) = s.num (i, j) ∧ t.cand (i, j) = if c then s.cand (i, j) else ∅ := by
  rw [C125_builds] at hm
  cases hm with
  | sequence _ w h ha =>
    have hf : ∀ b ∈ s.fields, b.1 < (w * h).toNat ∧ b.2 < (w * h).toNat := fun b hb => by
      have := mem_fields.1 hb
      rw [hs] at this
      exact this
    have hin : ∀ i j, i < (w * h).toNat → j < (w * h).toNat → (i, j) ∈ s.fields := fun i j hi hj => mem_fields.2 (by rw [hs]; exact ⟨hi, hj⟩)
    unfold Raw.copy
    rw [hs]
    simp only [new_sizes]
    rw [numbers_ok s s.fields (fresh ⟨w, h, (w * h).toNat⟩) hf]
    simp only
    cases c with
    | false => exact ⟨_, rfl, rfl, fun i j hi hj => ⟨if_pos (hin i j hi hj), rfl⟩⟩
    | true =>
      simp only [if_true]
      rw [candidates_ok s s.fields _ hf]
      exact ⟨_, rfl, rfl, fun i j hi hj => ⟨if_pos (hin i j hi hj), if_pos (hin i j hi hj)⟩⟩

/-- **C128** An instance made from a dictionary cannot be copied if it has any fields: `IndexError`. -/
theorem C128_dict (l : List (Int × Int)) (m : Made) (hm : NewArgs.new (.dict l) = .ok m) (s : Raw) (hs : s.made = m) (c : Bool) (hpos : 0 < m.size) :
    s.copy c = .error .IndexError := by
  have main : ∀ w h : Int, w * h = 0 → s.made.width = w → s.made.height = h → 0 < s.made.size → s.copy c = .error .IndexError := by
    intro w h h0 hw hh hp
    have hmem : (0, 0) ∈ s.fields := mem_fields.2 ⟨hp, hp⟩
    unfold Raw.copy
    rw [hw, hh]
    simp only [new_sizes]
    cases hl : s.fields with
    | nil => rw [hl] at hmem; cases hmem
    | cons a l' =>
      have hno : ¬ (a.1 < (fresh ⟨w, h, (w * h).toNat⟩).made.size ∧ a.2 < (fresh ⟨w, h, (w * h).toNat⟩).made.size) := by
        have : (fresh ⟨w, h, (w * h).toNat⟩).made.size = 0 := by show (w * h).toNat = 0; rw [h0]; rfl
        rw [this]
        omega
      unfold copyNumbers
      rw [if_neg hno]
  rw [C125_builds] at hm
  cases hm with
  | zeroOne v v' => exact main 0 1 rfl (by rw [hs]) (by rw [hs]) (by rw [hs]; exact hpos)
  | oneZero v v' => exact main 1 0 rfl (by rw [hs]) (by rw [hs]) (by rw [hs]; exact hpos)

/-- **C128** Its functions for boxes raise `ZeroDivisionError` for every field. -/
theorem C128_boxes (l : List (Int × Int)) (m : Made) (hm : NewArgs.new (.dict l) = .ok m) (row col : Int) (incl : Bool) :
    IntSizes.boxAt row col m.width m.height = .error .ZeroDivisionError ∧ IntSizes.boxOf row col m.width m.height incl = .error .ZeroDivisionError := by
  rw [C125_builds] at hm
  cases hm with
  | zeroOne v v' => exact ⟨rfl, rfl⟩
  | oneZero v v' => exact ⟨rfl, rfl⟩

/-- **C128** The text of an instance is that of a sudoku with as many rows and the same numbers and candidates (see C10). -/
theorem C128_text (s : Raw) (t : Sudoku) (hn : t.n = s.made.size) (hnum : t.num = s.num) (rowSep colSep : List Char) :
    s.encode rowSep colSep = Codec.encode t rowSep colSep false ∧
    (t.cand = s.cand → s.encode rowSep colSep true = Codec.encode t rowSep colSep true) := by
  have hi : t.indices = List.range s.made.size := by rw [← hn]; rfl
  have hc : t.cells = s.fields := by
    show Coordinates.product (List.range t.n) (List.range t.n) = _
    rw [hn]; rfl
  have hN : s.encodeNumbers rowSep colSep = Codec.encodeNumbers t rowSep colSep := by
    simp only [Raw.encodeNumbers, Codec.encodeNumbers, hi, Sudoku.get, hnum]
  refine ⟨hN, fun hcand => ?_⟩
  simp only [Raw.encode, Codec.encode, if_true, hN, hc, Sudoku.getCandidates, hcand]

/-- **C128** A copy is encoded like the original, with the candidates if they were copied. -/
theorem C128_encode (s t : Raw) (c : Bool) (h : s.copy c = .ok t) (ha : ∃ a, NewArgs.new (.arg a) = .ok s.made) (rowSep colSep : List Char) :
    t.encode rowSep colSep = s.encode rowSep colSep ∧ (c = true → t.encode rowSep colSep true = s.encode rowSep colSep true) := by
  obtain ⟨a, ha⟩ := ha
  obtain ⟨t', h1, h2, h3⟩ := C128_copy a s.made ha s rfl c
  rw [h] at h1
  cases h1
  have hN : t.encodeNumbers rowSep colSep = s.encodeNumbers rowSep colSep := by
    unfold Raw.encodeNumbers
    rw [h2]
    congr 1
    refine List.map_congr_left fun i hi => ?_
    congr 1
    refine List.map_congr_left fun j hj => ?_
    rw [(h3 i j (List.mem_range.1 hi) (List.mem_range.1 hj)).1]
  refine ⟨hN, fun hc => ?_⟩
  subst hc
  have hf : t.fields = s.fields := by unfold Raw.fields; rw [h2]
  show t.encodeNumbers rowSep colSep ++ '|' :: Py.join [','] (t.fields.map fun a => Codec.encodeField (t.cand a)) =
    s.encodeNumbers rowSep colSep ++ '|' :: Py.join [','] (s.fields.map fun a => Codec.encodeField (s.cand a))
  rw [hN, hf]
  congr 3
  refine List.map_congr_left fun b hb => ?_
  have hb' := mem_fields.1 hb
  rw [(h3 b.1 b.2 hb'.1 hb'.2).2, if_pos rfl]

/-- **C128** `encode` shows as many numbers as there are fields, also if `len()` is 0: the text of a new instance with `n > 0` rows and
separators is `n` rows of `n` zeros. -/
theorem C128_zeros (m : Made) (rowSep colSep : List Char) :
    (fresh m).encode rowSep colSep = Py.join rowSep (List.replicate m.size (Py.join colSep (List.replicate m.size ['0']))) := by
  show (fresh m).encodeNumbers rowSep colSep = _
  unfold Raw.encodeNumbers
  have hz : Py.intStr 0 = ['0'] := by decide +kernel
  have hz' : ∀ i j, Py.intStr ((fresh m).num (i, j)) = ['0'] := fun _ _ => hz
  simp only [hz', List.map_const', List.length_range]
  rfl

/-! ## Samples -/

example : ∃ m, NewArgs.new (.dict [(0, 3), (1, 3)]) = .ok m ∧ 0 < m.size := ⟨⟨0, 1, 9⟩, by decide +kernel, by decide⟩
example : (match (fresh ⟨0, 1, 9⟩).copy with | .ok _ => none | .error e => some e) = some PyErr.IndexError := by decide +kernel
example : (match (fresh ⟨-1, -2, 2⟩).copy with | .ok t => some (t.made, t.encode) | .error _ => none) = some (⟨-1, -2, 2⟩, "0000".toList) := by decide +kernel
/-- No fields: this copy succeeds. -/
example : (match (fresh ⟨0, 1, 0⟩).copy with | .ok t => some t.made | .error _ => none) = some ⟨0, 1, 0⟩ := by decide +kernel
example : (DecodeArgs.Raw.encode ⟨⟨0, 1, 2⟩, fun a => 2 * a.1 + a.2, fun _ => ∅⟩ ['/'] [' ']) = "0 1/2 3".toList := by decide +kernel
example : (fresh ⟨0, 1, 2⟩).encode ['/'] = "00/00".toList ∧ (⟨0, 1, 2⟩ : Made).len = 0 := by decide +kernel
example : (DecodeArgs.Raw.encode ⟨⟨0, 1, 2⟩, fun a => 2 * a.1 + a.2, fun a => {2, (a.1 : Int)}⟩ ['/'] [' '] true) = "0 1/2 3|02,02,12,12".toList := by
  decide +kernel

end Props
