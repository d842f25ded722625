import Verif.Proofs.Confluence

set_option autoImplicit false

/-! Helper lemmas: whether a class finds any step does not depend on what is done with the steps. -/

open Spec

namespace Solvers

/-! ### what is true after any step stays true -/

section
variable {W : Type} {view : W → Sudoku} {κ : W → Step → W} {D : W → Prop}

theorem nakedSingle_pres (hD : ∀ x st, D x → D (κ x st)) (x : W) (hx : D x) : D (findNakedSingle view κ x) := by
  unfold findNakedSingle
  refine foldl_inv D _ _ ?_ x hx
  intro y a _ hy
  try dsimp only
  split
  · split
    · exact hD _ _ hy
    · exact hy
  · exact hy

theorem hiddenUnits_pres (hD : ∀ x st, D x → D (κ x st)) (π : Orders W) (a : Cell) (ks : List Nat) :
    ∀ p : W × List Cell, D p.1 → D (hiddenUnits view κ π a ks p).1 := by
  induction ks with
  | nil => intro p hp; exact hp
  | cons k ks ih =>
    intro p hp
    unfold hiddenUnits
    try dsimp only
    have key : D ((π.hidden p.1 a k (hiddenCands (view p.1) (unitOf (view p.1) k a false))).foldl (fun (q : W × List Cell × Bool) v =>
        if a ∉ q.2.1 then (κ q.1 (Step.single .hiddenSingle a v), q.2.1 ++ [a], true) else q) (p.1, p.2, false)).1 := by
      refine foldl_inv (fun q : W × List Cell × Bool => D q.1) _ _ ?_ _ hp
      intro q v _ hq
      try dsimp only
      split
      · exact hD _ _ hq
      · exact hq
    split
    · exact key
    · exact ih _ key

theorem hiddenSingle_pres (hD : ∀ x st, D x → D (κ x st)) (π : Orders W) (x : W) (hx : D x) : D (findHiddenSingle view κ π x) := by
  unfold findHiddenSingle
  refine foldl_inv (fun p : W × List Cell => D p.1) _ _ ?_ (x, []) hx
  intro p a _ hp
  try dsimp only
  split
  · exact hiddenUnits_pres hD π a _ p hp
  · exact hp

theorem nakedAt_pres (hD : ∀ x st, D x → D (κ x st)) (n : Nat) (U : List Cell) (p : W × List (List Cell)) (hp : D p.1) :
    D (nakedAt view κ n U p).1 := by
  unfold nakedAt
  refine foldl_inv (fun p : W × List (List Cell) => D p.1) _ _ ?_ p hp
  intro q F _ hq
  try dsimp only
  split
  · split
    · split
      · exact hD _ _ hq
      · exact hq
    · exact hq
  · exact hq

theorem nakedKind_pres (hD : ∀ x st, D x → D (κ x st)) (n k : Nat) (p : W × List (List Cell)) (hp : D p.1) :
    D ((unitList (view p.1) k).foldl (fun p coords => nakedAt view κ n coords p) p).1 :=
  foldl_inv (fun p : W × List (List Cell) => D p.1) _ _ (fun q U _ hq => nakedAt_pres hD n U q hq) p hp

theorem hiddenAt_pres (hD : ∀ x st, D x → D (κ x st)) (n : Nat) (U : List Cell) (x : W) (hx : D x) : D (hiddenAt view κ n U x) := by
  unfold hiddenAt
  refine foldl_inv D _ _ ?_ x hx
  intro y V _ hy
  try dsimp only
  split
  · refine foldl_inv D _ _ ?_ y hy
    intro z _ _ hz
    try dsimp only
    split
    · exact hD _ _ hz
    · exact hz
  · exact hy

theorem hiddenKind_pres (hD : ∀ x st, D x → D (κ x st)) (n k : Nat) (x : W) (hx : D x) :
    D ((unitList (view x) k).foldl (fun w coords => hiddenAt view κ n coords w) x) :=
  foldl_inv D _ _ (fun y U _ hy => hiddenAt_pres hD n U y hy) x hx

theorem pointingInBox_pres (hD : ∀ x st, D x → D (κ x st)) (n box : Nat) (x : W) (hx : D x) : D (pointingInBox view κ n box x) := by
  unfold pointingInBox
  refine foldl_inv D _ _ ?_ x hx
  intro y v _ hy
  try dsimp only
  refine inv_ite (fun _ => hy) (fun _ => inv_ite (fun _ => hD _ _ hy) (fun _ => hy))

theorem pointingInLine_pres (hD : ∀ x st, D x → D (κ x st)) (n i : Nat) (x : W) (hx : D x) : D (pointingInLine view κ n i x) := by
  unfold pointingInLine
  refine foldl_inv D _ _ ?_ x hx
  intro y k _ hy
  refine foldl_inv D _ _ ?_ y hy
  intro z v _ hz
  try dsimp only
  exact inv_ite (fun _ => hz) (fun _ => inv_ite (fun _ => inv_ite (fun _ => hD _ _ hz) (fun _ => hz)) (fun _ => hz))

theorem fishFor_pres (hD : ∀ x st, D x → D (κ x st)) (π : Orders W) (n : Nat) (v : Int) (b : Bool) (x : W) (hx : D x) :
    D (fishFor view κ π n v b x) := by
  unfold fishFor
  refine foldl_inv D _ _ ?_ x hx
  intro y I _ hy
  try dsimp only
  exact inv_ite (fun _ => hy) (fun _ => inv_ite (fun _ => hy) (fun _ => inv_ite (fun _ => hD _ _ hy) (fun _ => hy)))

end

/-! ### two consumers -/

/-- Both are related or both have seen a step. -/
def Out {A B : Type} (R : A → B → Prop) (DA : A → Prop) (DB : B → Prop) (a : A) (b : B) : Prop := R a b ∨ DA a ∧ DB b

theorem out_foldl {A B γ : Type} {R : A → B → Prop} {DA : A → Prop} {DB : B → Prop} {f : A → γ → A} {g : B → γ → B} (l : List γ)
    (hA : ∀ c ∈ l, ∀ a, DA a → DA (f a c)) (hB : ∀ c ∈ l, ∀ b, DB b → DB (g b c))
    (h : ∀ c ∈ l, ∀ a b, R a b → Out R DA DB (f a c) (g b c)) : ∀ a b, Out R DA DB a b → Out R DA DB (l.foldl f a) (l.foldl g b) := by
  induction l with
  | nil => intro a b h; exact h
  | cons c l ih =>
    intro a b hab
    refine ih (fun c hc => hA c (by simp [hc])) (fun c hc => hB c (by simp [hc])) (fun c hc => h c (by simp [hc])) _ _ ?_
    rcases hab with hr | ⟨h1, h2⟩
    · exact h c (by simp) a b hr
    · exact Or.inr ⟨hA c (by simp) a h1, hB c (by simp) b h2⟩

theorem out_ite {A B : Type} {O : A → B → Prop} {c : Prop} [Decidable c] {a a' : A} {b b' : B} (h : c → O a b) (h' : ¬ c → O a' b') :
    O (if c then a else a') (if c then b else b') := by
  by_cases hc : c
  · rw [if_pos hc, if_pos hc]; exact h hc
  · rw [if_neg hc, if_neg hc]; exact h' hc

section
variable {A B : Type} {v₁ : A → Sudoku} {v₂ : B → Sudoku} {κ₁ : A → Step → A} {κ₂ : B → Step → B} {D₁ : A → Prop} {D₂ : B → Prop}
  {x₁ : A} {x₂ : B}

/-- Still at the start. -/
def At (x₁ : A) (x₂ : B) (a : A) (b : B) : Prop := a = x₁ ∧ b = x₂

/-- The same with a list that both have. -/
def At' {γ : Type} (x₁ : A) (x₂ : B) (p : A × List γ) (q : B × List γ) : Prop := p.1 = x₁ ∧ q.1 = x₂ ∧ p.2 = q.2

theorem nakedSingle_out (hv : v₁ x₁ = v₂ x₂) (h₁ : ∀ x st, x = x₁ ∨ D₁ x → D₁ (κ₁ x st)) (h₂ : ∀ x st, x = x₂ ∨ D₂ x → D₂ (κ₂ x st)) :
    Out (At x₁ x₂) D₁ D₂ (findNakedSingle v₁ κ₁ x₁) (findNakedSingle v₂ κ₂ x₂) := by
  unfold findNakedSingle
  rw [hv]
  have pres : ∀ {W : Type} {view : W → Sudoku} {κ : W → Step → W} {D : W → Prop} (_ : ∀ x st, D x → D (κ x st)) (c : Cell) (a : W), D a →
      D (if (view a).get c = 0 then
        match sortSet ((view a).getCandidates c) with
        | [v] => κ a (Step.single .nakedSingle c v)
        | _ => a
      else a) := by
    intro W view κ D h c a ha
    split
    · split
      · exact h _ _ ha
      · exact ha
    · exact ha
  refine out_foldl _ (fun c _ a ha => pres (fun x st hx => h₁ x st (Or.inr hx)) c a ha)
    (fun c _ a ha => pres (fun x st hx => h₂ x st (Or.inr hx)) c a ha) ?_ _ _ (Or.inl ⟨rfl, rfl⟩)
  rintro c - a b ⟨rfl, rfl⟩
  try dsimp only
  rw [hv]
  refine out_ite (O := Out (At a b) D₁ D₂) (fun _ => ?_) (fun _ => Or.inl ⟨rfl, rfl⟩)
  generalize sortSet ((v₂ b).getCandidates c) = l
  rcases l with _ | ⟨v, _ | ⟨u, l⟩⟩
  · exact Or.inl ⟨rfl, rfl⟩
  · exact Or.inr ⟨h₁ _ _ (Or.inl rfl), h₂ _ _ (Or.inl rfl)⟩
  · exact Or.inl ⟨rfl, rfl⟩

theorem hiddenUnits_out {π₁ : Orders A} {π₂ : Orders B} (hπ : π₁.hidden x₁ = π₂.hidden x₂) (hv : v₁ x₁ = v₂ x₂)
    (h₁ : ∀ x st, x = x₁ ∨ D₁ x → D₁ (κ₁ x st)) (h₂ : ∀ x st, x = x₂ ∨ D₂ x → D₂ (κ₂ x st)) (a : Cell) (ks : List Nat) :
    ∀ (p : A × List Cell) (q : B × List Cell), At' x₁ x₂ p q →
      Out (At' x₁ x₂) (fun p => D₁ p.1) (fun q => D₂ q.1) (hiddenUnits v₁ κ₁ π₁ a ks p) (hiddenUnits v₂ κ₂ π₂ a ks q) := by
  induction ks with
  | nil => intro p q h; exact Or.inl h
  | cons k ks ih =>
    rintro ⟨p1, Y⟩ ⟨q1, Y'⟩ ⟨e1, e2, e3⟩
    simp only at e1 e2 e3
    subst e1 e2 e3
    unfold hiddenUnits
    try dsimp only
    rw [hv, hπ]
    generalize π₂.hidden q1 a k (hiddenCands (v₂ q1) (unitOf (v₂ q1) k a false)) = l
    have key : Out (fun (r : A × List Cell × Bool) (r' : B × List Cell × Bool) => r = (p1, Y, false) ∧ r' = (q1, Y, false))
        (fun r => D₁ r.1 ∧ r.2.2 = true) (fun r => D₂ r.1 ∧ r.2.2 = true)
        (l.foldl (fun (q : A × List Cell × Bool) v =>
          if a ∉ q.2.1 then (κ₁ q.1 (Step.single .hiddenSingle a v), q.2.1 ++ [a], true) else q) (p1, Y, false))
        (l.foldl (fun (q : B × List Cell × Bool) v =>
          if a ∉ q.2.1 then (κ₂ q.1 (Step.single .hiddenSingle a v), q.2.1 ++ [a], true) else q) (q1, Y, false)) := by
      refine out_foldl l ?_ ?_ ?_ _ _ (Or.inl ⟨rfl, rfl⟩)
      · intro c _ r hr
        try dsimp only
        split
        · exact ⟨h₁ _ _ (Or.inr hr.1), rfl⟩
        · exact hr
      · intro c _ r hr
        try dsimp only
        split
        · exact ⟨h₂ _ _ (Or.inr hr.1), rfl⟩
        · exact hr
      · rintro c _ r r' ⟨rfl, rfl⟩
        try dsimp only
        exact out_ite (fun _ => Or.inr ⟨⟨h₁ _ _ (Or.inl rfl), rfl⟩, ⟨h₂ _ _ (Or.inl rfl), rfl⟩⟩) (fun _ => Or.inl ⟨rfl, rfl⟩)
    rcases key with ⟨k1, k2⟩ | ⟨⟨k1, k2⟩, ⟨k3, k4⟩⟩
    · rw [k1, k2]
      simp only [Bool.false_eq_true, if_false]
      exact ih _ _ ⟨rfl, rfl, rfl⟩
    · rw [if_pos k2, if_pos k4]
      exact Or.inr ⟨k1, k3⟩

theorem hiddenSingle_out {π₁ : Orders A} {π₂ : Orders B} (hπ : π₁.hidden x₁ = π₂.hidden x₂) (hv : v₁ x₁ = v₂ x₂)
    (h₁ : ∀ x st, x = x₁ ∨ D₁ x → D₁ (κ₁ x st)) (h₂ : ∀ x st, x = x₂ ∨ D₂ x → D₂ (κ₂ x st)) :
    Out (At x₁ x₂) D₁ D₂ (findHiddenSingle v₁ κ₁ π₁ x₁) (findHiddenSingle v₂ κ₂ π₂ x₂) := by
  unfold findHiddenSingle
  rw [hv]
  have key : Out (At' x₁ x₂) (fun p => D₁ p.1) (fun q => D₂ q.1)
      ((v₂ x₂).cells.foldl (fun (p : A × List Cell) a => if (v₁ p.1).get a = 0 then hiddenUnits v₁ κ₁ π₁ a [0, 1, 2] p else p) (x₁, []))
      ((v₂ x₂).cells.foldl (fun (p : B × List Cell) a => if (v₂ p.1).get a = 0 then hiddenUnits v₂ κ₂ π₂ a [0, 1, 2] p else p) (x₂, [])) := by
    refine out_foldl _ ?_ ?_ ?_ _ _ (Or.inl ⟨rfl, rfl, rfl⟩)
    · intro c _ p hp
      try dsimp only
      split
      · exact hiddenUnits_pres (fun x st hx => h₁ x st (Or.inr hx)) π₁ c _ p hp
      · exact hp
    · intro c _ p hp
      try dsimp only
      split
      · exact hiddenUnits_pres (fun x st hx => h₂ x st (Or.inr hx)) π₂ c _ p hp
      · exact hp
    · rintro c - ⟨p1, Y⟩ ⟨q1, Y'⟩ ⟨e1, e2, e3⟩
      simp only at e1 e2 e3
      subst e1 e2 e3
      try dsimp only
      rw [hv]
      exact out_ite (fun _ => hiddenUnits_out hπ hv h₁ h₂ c _ _ _ ⟨rfl, rfl, rfl⟩) (fun _ => Or.inl ⟨rfl, rfl, rfl⟩)
  rcases key with ⟨k1, k2, -⟩ | ⟨k1, k2⟩
  · exact Or.inl ⟨k1, k2⟩
  · exact Or.inr ⟨k1, k2⟩

theorem nakedTuple_out (hv : v₁ x₁ = v₂ x₂) (h₁ : ∀ x st, x = x₁ ∨ D₁ x → D₁ (κ₁ x st)) (h₂ : ∀ x st, x = x₂ ∨ D₂ x → D₂ (κ₂ x st)) (n : Nat) :
    Out (At x₁ x₂) D₁ D₂ (findNakedTuple v₁ κ₁ n x₁) (findNakedTuple v₂ κ₂ n x₂) := by
  unfold findNakedTuple
  have key : Out (At' x₁ x₂) (fun p => D₁ p.1) (fun q => D₂ q.1)
      ([1, 0, 2].foldl (fun (p : A × List (List Cell)) k => (unitList (v₁ p.1) k).foldl (fun p coords => nakedAt v₁ κ₁ n coords p) p) (x₁, []))
      ([1, 0, 2].foldl (fun (p : B × List (List Cell)) k => (unitList (v₂ p.1) k).foldl (fun p coords => nakedAt v₂ κ₂ n coords p) p) (x₂, [])) := by
    refine out_foldl _ ?_ ?_ ?_ _ _ (Or.inl ⟨rfl, rfl, rfl⟩)
    · exact fun k _ p hp => nakedKind_pres (fun x st hx => h₁ x st (Or.inr hx)) n k p hp
    · exact fun k _ p hp => nakedKind_pres (fun x st hx => h₂ x st (Or.inr hx)) n k p hp
    · rintro k - ⟨p1, Y⟩ ⟨q1, Y'⟩ ⟨e1, e2, e3⟩
      simp only at e1 e2 e3
      subst e1 e2 e3
      try dsimp only
      rw [hv]
      refine out_foldl _ ?_ ?_ ?_ _ _ (Or.inl ⟨rfl, rfl, rfl⟩)
      · exact fun U _ p hp => nakedAt_pres (fun x st hx => h₁ x st (Or.inr hx)) n U p hp
      · exact fun U _ p hp => nakedAt_pres (fun x st hx => h₂ x st (Or.inr hx)) n U p hp
      · rintro U - ⟨p1', Y⟩ ⟨q1', Y'⟩ ⟨e1, e2, e3⟩
        simp only at e1 e2 e3
        subst e1 e2 e3
        unfold nakedAt
        try dsimp only
        rw [hv]
        refine out_foldl _ ?_ ?_ ?_ _ _ (Or.inl ⟨rfl, rfl, rfl⟩)
        · intro F _ p hp
          try dsimp only
          exact inv_ite (P := fun p : A × List (List Cell) => D₁ p.1) (fun _ => inv_ite (P := fun p : A × List (List Cell) => D₁ p.1)
            (fun _ => inv_ite (P := fun p : A × List (List Cell) => D₁ p.1) (fun _ => h₁ _ _ (Or.inr hp)) (fun _ => hp)) (fun _ => hp)) (fun _ => hp)
        · intro F _ p hp
          try dsimp only
          exact inv_ite (P := fun p : B × List (List Cell) => D₂ p.1) (fun _ => inv_ite (P := fun p : B × List (List Cell) => D₂ p.1)
            (fun _ => inv_ite (P := fun p : B × List (List Cell) => D₂ p.1) (fun _ => h₂ _ _ (Or.inr hp)) (fun _ => hp)) (fun _ => hp)) (fun _ => hp)
        · rintro F - ⟨p1, Y⟩ ⟨q1, Y'⟩ ⟨e1, e2, e3⟩
          simp only at e1 e2 e3
          subst e1 e2 e3
          try dsimp only
          rw [hv]
          exact out_ite (fun _ => out_ite (fun _ => out_ite (fun _ => Or.inr ⟨h₁ _ _ (Or.inl rfl), h₂ _ _ (Or.inl rfl)⟩) (fun _ => Or.inl ⟨rfl, rfl, rfl⟩))
            (fun _ => Or.inl ⟨rfl, rfl, rfl⟩)) (fun _ => Or.inl ⟨rfl, rfl, rfl⟩)
  rcases key with ⟨k1, k2, -⟩ | ⟨k1, k2⟩
  · exact Or.inl ⟨k1, k2⟩
  · exact Or.inr ⟨k1, k2⟩

theorem hiddenTuple_out (hv : v₁ x₁ = v₂ x₂) (h₁ : ∀ x st, x = x₁ ∨ D₁ x → D₁ (κ₁ x st)) (h₂ : ∀ x st, x = x₂ ∨ D₂ x → D₂ (κ₂ x st)) (n : Nat) :
    Out (At x₁ x₂) D₁ D₂ (findHiddenTuple v₁ κ₁ n x₁) (findHiddenTuple v₂ κ₂ n x₂) := by
  unfold findHiddenTuple
  refine out_foldl _ ?_ ?_ ?_ _ _ (Or.inl ⟨rfl, rfl⟩)
  · exact fun k _ x hx => hiddenKind_pres (fun x st hx => h₁ x st (Or.inr hx)) n k x hx
  · exact fun k _ x hx => hiddenKind_pres (fun x st hx => h₂ x st (Or.inr hx)) n k x hx
  · rintro k - a b ⟨rfl, rfl⟩
    rw [hv]
    refine out_foldl _ ?_ ?_ ?_ _ _ (Or.inl ⟨rfl, rfl⟩)
    · exact fun U _ x hx => hiddenAt_pres (fun x st hx => h₁ x st (Or.inr hx)) n U x hx
    · exact fun U _ x hx => hiddenAt_pres (fun x st hx => h₂ x st (Or.inr hx)) n U x hx
    · rintro U - a b ⟨rfl, rfl⟩
      unfold hiddenAt
      try dsimp only
      rw [hv]
      refine out_foldl _ ?_ ?_ ?_ _ _ (Or.inl ⟨rfl, rfl⟩)
      · intro V _ x hx
        try dsimp only
        refine inv_ite (fun _ => foldl_inv D₁ _ _ ?_ x hx) (fun _ => hx)
        exact fun z _ _ hz => inv_ite (fun _ => h₁ _ _ (Or.inr hz)) (fun _ => hz)
      · intro V _ x hx
        try dsimp only
        refine inv_ite (fun _ => foldl_inv D₂ _ _ ?_ x hx) (fun _ => hx)
        exact fun z _ _ hz => inv_ite (fun _ => h₂ _ _ (Or.inr hz)) (fun _ => hz)
      · rintro V - a b ⟨rfl, rfl⟩
        try dsimp only
        refine out_ite (fun _ => ?_) (fun _ => Or.inl ⟨rfl, rfl⟩)
        refine out_foldl _ ?_ ?_ ?_ _ _ (Or.inl ⟨rfl, rfl⟩)
        · exact fun _ _ z hz => inv_ite (fun _ => h₁ _ _ (Or.inr hz)) (fun _ => hz)
        · exact fun _ _ z hz => inv_ite (fun _ => h₂ _ _ (Or.inr hz)) (fun _ => hz)
        · rintro _ - a b ⟨rfl, rfl⟩
          try dsimp only
          rw [hv]
          exact out_ite (fun _ => Or.inr ⟨h₁ _ _ (Or.inl rfl), h₂ _ _ (Or.inl rfl)⟩) (fun _ => Or.inl ⟨rfl, rfl⟩)

theorem pointingInBox_out (hv : v₁ x₁ = v₂ x₂) (h₁ : ∀ x st, x = x₁ ∨ D₁ x → D₁ (κ₁ x st)) (h₂ : ∀ x st, x = x₂ ∨ D₂ x → D₂ (κ₂ x st)) (n box : Nat) :
    Out (At x₁ x₂) D₁ D₂ (pointingInBox v₁ κ₁ n box x₁) (pointingInBox v₂ κ₂ n box x₂) := by
  unfold pointingInBox
  try dsimp only
  rw [hv]
  refine out_foldl _ ?_ ?_ ?_ _ _ (Or.inl ⟨rfl, rfl⟩)
  · exact fun v _ z hz => inv_ite (fun _ => hz) (fun _ => inv_ite (fun _ => h₁ _ _ (Or.inr hz)) (fun _ => hz))
  · exact fun v _ z hz => inv_ite (fun _ => hz) (fun _ => inv_ite (fun _ => h₂ _ _ (Or.inr hz)) (fun _ => hz))
  · rintro v - a b ⟨rfl, rfl⟩
    try dsimp only
    rw [hv]
    exact out_ite (fun _ => Or.inl ⟨rfl, rfl⟩) (fun _ => out_ite (fun _ => Or.inr ⟨h₁ _ _ (Or.inl rfl), h₂ _ _ (Or.inl rfl)⟩) (fun _ => Or.inl ⟨rfl, rfl⟩))

theorem pointingInLine_out (hv : v₁ x₁ = v₂ x₂) (h₁ : ∀ x st, x = x₁ ∨ D₁ x → D₁ (κ₁ x st)) (h₂ : ∀ x st, x = x₂ ∨ D₂ x → D₂ (κ₂ x st)) (n i : Nat) :
    Out (At x₁ x₂) D₁ D₂ (pointingInLine v₁ κ₁ n i x₁) (pointingInLine v₂ κ₂ n i x₂) := by
  unfold pointingInLine
  refine out_foldl _ ?_ ?_ ?_ _ _ (Or.inl ⟨rfl, rfl⟩)
  · intro k _ z hz
    refine foldl_inv D₁ _ _ ?_ z hz
    exact fun z v _ hz => inv_ite (fun _ => hz) (fun _ => inv_ite (fun _ => inv_ite (fun _ => h₁ _ _ (Or.inr hz)) (fun _ => hz)) (fun _ => hz))
  · intro k _ z hz
    refine foldl_inv D₂ _ _ ?_ z hz
    exact fun z v _ hz => inv_ite (fun _ => hz) (fun _ => inv_ite (fun _ => inv_ite (fun _ => h₂ _ _ (Or.inr hz)) (fun _ => hz)) (fun _ => hz))
  · rintro k - a b ⟨rfl, rfl⟩
    try dsimp only
    rw [hv]
    refine out_foldl _ ?_ ?_ ?_ _ _ (Or.inl ⟨rfl, rfl⟩)
    · exact fun v _ z hz => inv_ite (fun _ => hz) (fun _ => inv_ite (fun _ => inv_ite (fun _ => h₁ _ _ (Or.inr hz)) (fun _ => hz)) (fun _ => hz))
    · exact fun v _ z hz => inv_ite (fun _ => hz) (fun _ => inv_ite (fun _ => inv_ite (fun _ => h₂ _ _ (Or.inr hz)) (fun _ => hz)) (fun _ => hz))
    · rintro v - a b ⟨rfl, rfl⟩
      try dsimp only
      rw [hv]
      exact out_ite (fun _ => Or.inl ⟨rfl, rfl⟩) (fun _ => out_ite (fun _ => out_ite (fun _ => Or.inr ⟨h₁ _ _ (Or.inl rfl), h₂ _ _ (Or.inl rfl)⟩)
        (fun _ => Or.inl ⟨rfl, rfl⟩)) (fun _ => Or.inl ⟨rfl, rfl⟩))

theorem pointing_out (hv : v₁ x₁ = v₂ x₂) (h₁ : ∀ x st, x = x₁ ∨ D₁ x → D₁ (κ₁ x st)) (h₂ : ∀ x st, x = x₂ ∨ D₂ x → D₂ (κ₂ x st)) (n : Nat) :
    Out (At x₁ x₂) D₁ D₂ (findPointing v₁ κ₁ n x₁) (findPointing v₂ κ₂ n x₂) := by
  unfold findPointing
  try dsimp only
  rw [hv]
  refine out_foldl _ ?_ ?_ ?_ _ _ ?_
  · exact fun i _ z hz => pointingInLine_pres (fun x st hx => h₁ x st (Or.inr hx)) n i z hz
  · exact fun i _ z hz => pointingInLine_pres (fun x st hx => h₂ x st (Or.inr hx)) n i z hz
  · rintro i - a b ⟨rfl, rfl⟩; exact pointingInLine_out hv h₁ h₂ n i
  · refine out_foldl _ ?_ ?_ ?_ _ _ (Or.inl ⟨rfl, rfl⟩)
    · exact fun i _ z hz => pointingInBox_pres (fun x st hx => h₁ x st (Or.inr hx)) n i z hz
    · exact fun i _ z hz => pointingInBox_pres (fun x st hx => h₂ x st (Or.inr hx)) n i z hz
    · rintro i - a b ⟨rfl, rfl⟩; exact pointingInBox_out hv h₁ h₂ n i

theorem fish_out {π₁ : Orders A} {π₂ : Orders B} (hπ : π₁.fish x₁ = π₂.fish x₂) (hv : v₁ x₁ = v₂ x₂)
    (h₁ : ∀ x st, x = x₁ ∨ D₁ x → D₁ (κ₁ x st)) (h₂ : ∀ x st, x = x₂ ∨ D₂ x → D₂ (κ₂ x st)) (n : Nat) :
    Out (At x₁ x₂) D₁ D₂ (findFish v₁ κ₁ π₁ n x₁) (findFish v₂ κ₂ π₂ n x₂) := by
  unfold findFish
  rw [hv]
  refine out_foldl _ ?_ ?_ ?_ _ _ (Or.inl ⟨rfl, rfl⟩)
  · exact fun p _ z hz => fishFor_pres (fun x st hx => h₁ x st (Or.inr hx)) π₁ n p.2 p.1 z hz
  · exact fun p _ z hz => fishFor_pres (fun x st hx => h₂ x st (Or.inr hx)) π₂ n p.2 p.1 z hz
  · rintro ⟨r, v⟩ - a b ⟨rfl, rfl⟩
    unfold fishFor
    try dsimp only
    rw [hv, hπ]
    refine out_foldl _ ?_ ?_ ?_ _ _ (Or.inl ⟨rfl, rfl⟩)
    · exact fun I _ z hz => inv_ite (fun _ => hz) (fun _ => inv_ite (fun _ => hz) (fun _ => inv_ite (fun _ => h₁ _ _ (Or.inr hz)) (fun _ => hz)))
    · exact fun I _ z hz => inv_ite (fun _ => hz) (fun _ => inv_ite (fun _ => hz) (fun _ => inv_ite (fun _ => h₂ _ _ (Or.inr hz)) (fun _ => hz)))
    · rintro I - a b ⟨rfl, rfl⟩
      try dsimp only
      rw [hv]
      exact out_ite (fun _ => Or.inl ⟨rfl, rfl⟩) (fun _ => out_ite (fun _ => Or.inl ⟨rfl, rfl⟩)
        (fun _ => out_ite (fun _ => Or.inr ⟨h₁ _ _ (Or.inl rfl), h₂ _ _ (Or.inl rfl)⟩) (fun _ => Or.inl ⟨rfl, rfl⟩)))

/-- Both find nothing, or both find something. -/
theorem find_out {π₁ : Orders A} {π₂ : Orders B} (hπ : π₁.hidden x₁ = π₂.hidden x₂) (hπ' : π₁.fish x₁ = π₂.fish x₂) (hv : v₁ x₁ = v₂ x₂)
    (h₁ : ∀ x st, x = x₁ ∨ D₁ x → D₁ (κ₁ x st)) (h₂ : ∀ x st, x = x₂ ∨ D₂ x → D₂ (κ₂ x st)) (fuel₁ fuel₂ : Nat) {k : Kind} (hk : k ≠ .calculateCandidates)
    (hb : k ≠ .bruteforce) : ∃ y₁ y₂, find v₁ κ₁ π₁ fuel₁ k x₁ = .ok y₁ ∧ find v₂ κ₂ π₂ fuel₂ k x₂ = .ok y₂ ∧
      (y₁ = x₁ ∧ y₂ = x₂ ∨ D₁ y₁ ∧ D₂ y₂) := by
  cases k with
  | calculateCandidates => exact absurd rfl hk
  | bruteforce => exact absurd rfl hb
  | nakedSingle => exact ⟨_, _, rfl, rfl, nakedSingle_out hv h₁ h₂⟩
  | hiddenSingle => exact ⟨_, _, rfl, rfl, hiddenSingle_out hπ hv h₁ h₂⟩
  | nakedTuple n => exact ⟨_, _, rfl, rfl, nakedTuple_out hv h₁ h₂ n⟩
  | hiddenTuple n => exact ⟨_, _, rfl, rfl, hiddenTuple_out hv h₁ h₂ n⟩
  | pointingTuple n => exact ⟨_, _, rfl, rfl, pointing_out hv h₁ h₂ n⟩
  | basicFish n => exact ⟨_, _, rfl, rfl, fish_out hπ' hv h₁ h₂ n⟩

end

end Solvers
