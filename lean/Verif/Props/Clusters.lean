import Verif.Props.Misread
import Verif.Props.Uax29

/-!
# C41, C96: the clusters of any well-formed text
-/

namespace ArgRouter.Props

open ArgRouter.Utf8 ArgRouter.Spec ArgRouter.Spec.Uax29

/-- A character as it is read: its bytes and its number. -/
abbrev Read := Bytes × Nat

/-- The characters that bytes are read as. -/
inductive ReadList : Bytes → List Read → Prop
  | nil : ReadList [] []
  | step {x : UInt8} {r : Bytes} {v : Nat} {ps : List Read} :
      cpSize (x :: r) ≤ (x :: r).length → decode (cpDeref (x :: r)) = some v →
      ReadList ((x :: r).drop (cpSize (x :: r))) ps → ReadList (x :: r) ((cpDeref (x :: r), v) :: ps)

/-- The bytes of characters as read. -/
def bytesOf (ps : List Read) : Bytes := (ps.map (·.1)).flatten

theorem readList_of {s : Bytes} {vs : List Nat} {sp : Bool} (h : Reads s vs sp) : sp = false →
    ∃ ps, ReadList s ps ∧ ps.map (·.2) = vs := by
  induction h with
  | nil => intro _; exact ⟨[], .nil, rfl⟩
  | step h1 h2 _ ih =>
    intro hs
    obtain ⟨ps, h3, h4⟩ := ih hs
    exact ⟨_, .step h1 h2 h3, by rw [List.map_cons, h4]⟩
  | spill => intro h; cases h

theorem readList_bytes {s : Bytes} {ps : List Read} (h : ReadList s ps) : bytesOf ps = s := by
  induction h with
  | nil => rfl
  | @step x r v ps h1 h2 h3 ih =>
    show cpDeref (x :: r) ++ bytesOf ps = x :: r
    rw [ih, cpDeref, List.take_append_drop]

theorem readList_list {s : Bytes} {ps : List Read} (h : ReadList s ps) : ∀ fuel, s.length ≤ fuel →
    cpListAux fuel s = .ok (ps.map (·.1)) := by
  induction h with
  | nil => intro fuel _; cases fuel <;> rfl
  | @step x r v ps h1 h2 h3 ih =>
    intro fuel hf
    cases fuel with
    | zero => simp at hf
    | succ n =>
      have hp := cpSize_pos x r
      simp only [cpListAux, cpNext, if_pos h1, Out.ok_bind]
      rw [ih n (by simp only [List.length_drop, List.length_cons] at hf ⊢; omega)]
      rfl

/-- The class of the first of some characters. -/
def nextRead : List Read → GClass
  | [] => .any
  | p :: _ => gClass p.2

/-- The first cluster and the window after it. -/
def splitRead : GWindow → List Read → List Read × GWindow
  | w, [] => ([], w)
  | w, p :: ps =>
    let w' := gPush (gClass p.2) w
    if gShouldBreak w' (nextRead ps) then ([p], w')
    else
      let r := splitRead w' ps
      (p :: r.1, r.2)

/-- All clusters; `acc` is the one under construction. -/
def partsFrom : GWindow → List Read → List Read → List (List Read)
  | _, acc, [] => if acc.isEmpty then [] else [acc]
  | w, acc, p :: ps =>
    let w' := gPush (gClass p.2) w
    if gShouldBreak w' (nextRead ps) then (acc ++ [p]) :: partsFrom w' [] ps
    else partsFrom w' (acc ++ [p]) ps

theorem readList_next {s : Bytes} {ps : List Read} (h : ReadList s ps) : gNextClass s = nextRead ps := by
  cases h with
  | nil => rfl
  | step h1 h2 h3 => simp only [gNextClass, h2, nextRead]

theorem cpSize_deref (x : UInt8) (r : Bytes) : cpSize (cpDeref (x :: r)) = cpSize (x :: r) := by
  have hp := cpSize_pos x r
  obtain ⟨m, hm⟩ : ∃ m, cpSize (x :: r) = m + 1 := ⟨cpSize (x :: r) - 1, by omega⟩
  rw [cpDeref, hm, List.take_succ_cons, ← hm, cpSize_cons, cpSize_cons]

theorem bytesOf_cons (p : Read) (ps : List Read) : bytesOf (p :: ps) = p.1 ++ bytesOf ps := rfl

theorem bytesOf_append (ps qs : List Read) : bytesOf (ps ++ qs) = bytesOf ps ++ bytesOf qs := by
  simp [bytesOf]

theorem readList_loop {s : Bytes} {ps : List Read} (h : ReadList s ps) :
    ∀ fuel cur w, s.length ≤ fuel → gLoop fuel s cur w
      = .ok (cur + (bytesOf (splitRead w ps).1).length, (splitRead w ps).2) := by
  induction h with
  | nil => intro fuel cur w _; cases fuel <;> simp [gLoop, splitRead, bytesOf]
  | @step x r v ps h1 h2 h3 ih =>
    intro fuel cur w hf
    cases fuel with
    | zero => simp at hf
    | succ n =>
      have hp := cpSize_pos x r
      have hl : (cpDeref (x :: r)).length = cpSize (x :: r) := by
        rw [cpDeref, List.length_take]; omega
      simp only [gLoop, cpNext, if_pos h1, h2, Out.ok_bind, readList_next h3, splitRead, cpSize_deref]
      split
      · simp [bytesOf, hl]
      · rw [ih n _ _ (by simp only [List.length_drop, List.length_cons] at hf ⊢; omega)]
        simp only [bytesOf_cons, List.length_append, hl, Nat.add_assoc]

theorem splitRead_append (w : GWindow) (ps : List Read) : ∃ r, ps = (splitRead w ps).1 ++ r := by
  induction ps generalizing w with
  | nil => exact ⟨[], rfl⟩
  | cons p ps ih =>
    simp only [splitRead]
    split
    · exact ⟨ps, rfl⟩
    · obtain ⟨r, hr⟩ := ih (gPush (gClass p.2) w)
      exact ⟨r, by simpa using hr⟩

theorem splitRead_ne_nil (w : GWindow) (p : Read) (ps : List Read) : (splitRead w (p :: ps)).1 ≠ [] := by
  simp only [splitRead]; split <;> simp

theorem partsFrom_split (w : GWindow) (p : Read) (ps acc r : List Read)
    (hr : p :: ps = (splitRead w (p :: ps)).1 ++ r) :
    partsFrom w acc (p :: ps)
      = (acc ++ (splitRead w (p :: ps)).1) :: partsFrom (splitRead w (p :: ps)).2 [] r := by
  induction ps generalizing w p acc with
  | nil =>
    simp only [splitRead, partsFrom] at hr ⊢
    split at hr <;> rename_i h
    · simp at hr; subst hr; simp [partsFrom]
    · simp at hr; subst hr; simp [partsFrom]
  | cons d ps ih =>
    rw [splitRead] at hr ⊢
    rw [partsFrom]
    simp only at hr ⊢
    split at hr <;> rename_i h
    · simp only [h, if_true]
      simp at hr; subst hr; rfl
    · simp only [h, if_false, Bool.false_eq_true]
      have hr' : d :: ps = (splitRead (gPush (gClass p.2) w) (d :: ps)).1 ++ r := by
        simpa using hr
      rw [ih _ d (acc ++ [p]) hr']
      simp

theorem readList_drop (ps : List Read) : ∀ (s : Bytes) (qs : List Read), ReadList s (ps ++ qs) →
    ReadList (s.drop (bytesOf ps).length) qs := by
  induction ps with
  | nil => intro s qs h; exact h
  | cons p ps ih =>
    intro s qs h
    cases h with
    | @step x r v _ h1 h2 h3 =>
      have hl : (cpDeref (x :: r)).length = cpSize (x :: r) := by
        rw [cpDeref, List.length_take]; omega
      rw [bytesOf_cons, List.length_append, hl, ← List.drop_drop]
      exact ih _ _ h3

theorem readList_toList : ∀ fuel (s : Bytes) (ps : List Read) (w : GWindow), ReadList s ps → s.length ≤ fuel →
    GIter.toList fuel ⟨s, (bytesOf (splitRead w ps).1).length, (splitRead w ps).2⟩
      = .ok ((partsFrom w [] ps).map bytesOf) := by
  intro fuel
  induction fuel with
  | zero =>
    intro s ps w h hf
    cases h with
    | nil => simp [GIter.toList, partsFrom]
    | step => simp at hf
  | succ n ih =>
    intro s ps w h hf
    cases ps with
    | nil => cases h; simp [GIter.toList, partsFrom]
    | cons p ps =>
      obtain ⟨r, hr⟩ := splitRead_append w (p :: ps)
      have hne : s.isEmpty = false := by cases h; rfl
      have hs : s = bytesOf (splitRead w (p :: ps)).1 ++ bytesOf r := by
        rw [← bytesOf_append, ← hr, readList_bytes h]
      have hr' : ReadList (bytesOf r) r := by
        have := readList_drop (splitRead w (p :: ps)).1 s r (by rw [← hr]; exact h)
        have hb := readList_bytes this
        rw [← hb] at this
        exact this
      have hpos : 0 < (bytesOf (splitRead w (p :: ps)).1).length := by
        obtain ⟨q, qs, e⟩ := List.exists_cons_of_ne_nil (splitRead_ne_nil w p ps)
        have hq : q = p := by rw [e] at hr; simpa using (congrArg List.head? hr).symm
        rw [e, bytesOf_cons, hq, List.length_append]
        cases h with
        | @step x t v _ h1 h2 h3 =>
          have := cpSize_pos x t
          simp only [cpDeref, List.length_take]
          omega
      have hlen : (bytesOf r).length ≤ n := by
        have := congrArg List.length hs
        rw [List.length_append] at this
        omega
      have hnext : GIter.next ⟨s, (bytesOf (splitRead w (p :: ps)).1).length, (splitRead w (p :: ps)).2⟩ =
          .ok ⟨bytesOf r, (bytesOf (splitRead (splitRead w (p :: ps)).2 r).1).length,
            (splitRead (splitRead w (p :: ps)).2 r).2⟩ := by
        simp only [GIter.next, gUpdate]
        rw [if_pos (by rw [hs, List.length_append]; omega)]
        have hd : s.drop (bytesOf (splitRead w (p :: ps)).1).length = bytesOf r := by
          rw (config := {occs := .pos [1]}) [hs]
          exact List.drop_left
        rw [hd, readList_loop hr' _ _ _ (Nat.le_refl _)]
        simp
      have hderef : GIter.deref ⟨s, (bytesOf (splitRead w (p :: ps)).1).length, (splitRead w (p :: ps)).2⟩ =
          bytesOf (splitRead w (p :: ps)).1 := by
        simp only [GIter.deref]
        rw (config := {occs := .pos [1]}) [hs]
        exact List.take_left
      rw [GIter.toList]
      simp only [hne, hnext, Out.ok_bind, ih _ r _ hr' hlen, hderef, Bool.false_eq_true, if_false]
      rw [partsFrom_split w p ps [] r hr]
      simp

theorem readList_graphemes {s : Bytes} {ps : List Read} (h : ReadList s ps) :
    graphemes s = .ok ((partsFrom gWindowInit [] ps).map bytesOf) := by
  have hl := readList_loop h _ 0 gWindowInit (Nat.le_refl _)
  simp only [graphemes, GIter.init, gUpdate, hl, Out.ok_bind, Out.pure_eq]
  simpa using readList_toList _ s ps gWindowInit h (Nat.le_refl _)

theorem partsFrom_flatten (w : GWindow) (acc ps : List Read) :
    (partsFrom w acc ps).flatten = acc ++ ps := by
  induction ps generalizing w acc with
  | nil => simp only [partsFrom]; split <;> simp_all
  | cons p ps ih =>
    simp only [partsFrom]
    split <;> simp [ih]

theorem partsFrom_ne_nil (w : GWindow) (acc ps : List Read) :
    ∀ p ∈ partsFrom w acc ps, p ≠ [] := by
  induction ps generalizing w acc with
  | nil => simp only [partsFrom]; split <;> simp_all
  | cons c ps ih =>
    simp only [partsFrom]
    split
    · intro p hp
      rcases List.mem_cons.1 hp with rfl | hp
      · simp
      · exact ih _ _ p hp
    · exact ih _ _

theorem partsFrom_acc (w : GWindow) (acc ps : List Read) (ha : acc ≠ []) :
    ∃ p qs, partsFrom w acc ps = (acc ++ p) :: qs := by
  induction ps generalizing w acc with
  | nil => exact ⟨[], [], by simp [partsFrom, ha]⟩
  | cons c ps ih =>
    simp only [partsFrom]
    split
    · exact ⟨[c], _, rfl⟩
    · obtain ⟨p, qs, e⟩ := ih (gPush (gClass c.2) w) (acc ++ [c]) (by simp)
      exact ⟨c :: p, qs, by rw [e]; simp⟩

theorem gClass_number (n : Nat) : gClass n = clusterClassOf n := by
  have ht := C38_shipped_tables.2.2.2.1
  unfold gClass clusterClassOf
  cases hf : findRange graphemeTable n with
  | none =>
    have := (C38_lookup_none _ ht _).1 hf
    rw [List.find?_eq_none.2 (fun r hr => by simpa using this r hr)]
  | some r =>
    obtain ⟨h1, h2, h3⟩ := (C38_lookup _ ht _ _).1 hf
    cases hg : graphemeTable.find? fun r => decide (r.first ≤ n ∧ n ≤ r.last) with
    | none =>
      have := List.find?_eq_none.1 hg r h1
      simp only [decide_eq_true_eq] at this
      exact absurd ⟨h2, h3⟩ this
    | some q =>
      have h4 := List.find?_some hg
      have h5 := List.mem_of_find?_eq_some hg
      have := (C38_lookup _ ht n q).2 ⟨h5, by simpa using h4⟩
      rw [hf] at this
      cases this
      rfl

/-- The window after reading characters. -/
def winRead (w : GWindow) : List Read → GWindow
  | [] => w
  | p :: ps => winRead (gPush (gClass p.2) w) ps

theorem winRead_eq (ps : List Read) : ∀ (h : List GClass), winRead ((h ++ gWindowInit).take 16) ps =
    (((ps.map (·.2)).map clusterClassOf).reverse ++ h ++ gWindowInit).take 16 := by
  induction ps with
  | nil => intro h; simp [winRead]
  | cons p ps ih =>
    intro h
    have : gPush (gClass p.2) ((h ++ gWindowInit).take 16) =
        ((clusterClassOf p.2 :: h) ++ gWindowInit).take 16 := by
      unfold gPush windowSize
      rw [gClass_number, List.take_take, List.cons_append, List.take_succ_cons]
      rfl
    rw [winRead, this, ih (clusterClassOf p.2 :: h)]
    simp

theorem partsFrom_cut (ps : List Read) : ∀ (w : GWindow) (acc : List Read) (i : Nat), 0 < i →
    i < ps.length → ((∃ k, (((partsFrom w acc ps).take k).flatten).length = acc.length + i) ↔
      gShouldBreak (winRead w (ps.take i)) (nextRead (ps.drop i)) = true) := by
  induction ps with
  | nil => intro w acc i _ h; simp at h
  | cons c ps ih =>
    intro w acc i h0 h1
    obtain ⟨j, rfl⟩ : ∃ j, i = j + 1 := ⟨i - 1, by omega⟩
    have h1 : j < ps.length := by simpa using h1
    rw [partsFrom]
    simp only [List.take_succ_cons, List.drop_succ_cons, winRead]
    by_cases hb : gShouldBreak (gPush (gClass c.2) w) (nextRead ps) = true
    · rw [if_pos hb]
      by_cases hj : j = 0
      · subst hj
        simp only [List.take_zero, List.drop_zero, winRead, hb, iff_true]
        exact ⟨1, by simp⟩
      · rw [← ih _ [] j (by omega) h1]
        constructor
        · rintro ⟨k, hk⟩
          cases k with
          | zero => simp at hk
          | succ k => exact ⟨k, by simp at hk; simp; omega⟩
        · rintro ⟨k, hk⟩
          exact ⟨k + 1, by simp at hk; simp; omega⟩
    · rw [if_neg hb]
      by_cases hj : j = 0
      · subst hj
        simp only [List.take_zero, List.drop_zero, winRead, hb, Bool.false_eq_true, iff_false]
        rintro ⟨k, hk⟩
        cases ps with
        | nil => simp at h1
        | cons d ps =>
          rw [partsFrom] at hk
          have : ∃ p qs, (if gShouldBreak (gPush (gClass d.2) (gPush (gClass c.2) w)) (nextRead ps) = true
              then (acc ++ [c] ++ [d]) :: partsFrom (gPush (gClass d.2) (gPush (gClass c.2) w)) [] ps
              else partsFrom (gPush (gClass d.2) (gPush (gClass c.2) w)) (acc ++ [c] ++ [d]) ps) =
              (acc ++ [c] ++ [d] ++ p) :: qs := by
            split
            · exact ⟨[], _, by rw [List.append_nil]⟩
            · exact partsFrom_acc _ _ _ (by simp)
          obtain ⟨p, qs, e⟩ := this
          rw [e] at hk
          cases k with
          | zero => simp at hk
          | succ k => simp at hk
      · have := ih (gPush (gClass c.2) w) (acc ++ [c]) j (by omega) h1
        rw [← this]
        simp only [List.length_append, List.length_singleton]
        rw [show acc.length + 1 + j = acc.length + (j + 1) by omega]

/-- The pieces that bytes are read in, whether or not they stand for characters. -/
inductive PieceList : Bytes → List Bytes → Prop
  | nil : PieceList [] []
  | step {x : UInt8} {r : Bytes} {ps : List Bytes} : cpSize (x :: r) ≤ (x :: r).length →
      PieceList ((x :: r).drop (cpSize (x :: r))) ps → PieceList (x :: r) (cpDeref (x :: r) :: ps)

theorem pieceList_of {s : Bytes} (h : Stays s) : ∃ ps, PieceList s ps := by
  induction h with
  | nil => exact ⟨[], .nil⟩
  | step h1 _ ih =>
    obtain ⟨ps, h⟩ := ih
    exact ⟨_, .step h1 h⟩

theorem pieceList_list {s : Bytes} {ps : List Bytes} (h : PieceList s ps) : ∀ fuel, s.length ≤ fuel →
    cpListAux fuel s = .ok ps := by
  induction h with
  | nil => intro fuel _; cases fuel <;> rfl
  | @step x r ps h1 h3 ih =>
    intro fuel hf
    cases fuel with
    | zero => simp at hf
    | succ n =>
      have hp := cpSize_pos x r
      simp only [cpListAux, cpNext, if_pos h1, Out.ok_bind]
      rw [ih n (by simp only [List.length_drop, List.length_cons] at hf ⊢; omega)]
      rfl

theorem pieceList_loop {s : Bytes} {ps : List Bytes} (h : PieceList s ps) : ∀ fuel cur w, s.length ≤ fuel →
    ∃ p q w', gLoop fuel s cur w = .ok (cur + p.flatten.length, w') ∧ ps = p ++ q ∧
      s.take p.flatten.length = p.flatten ∧ p.flatten.length ≤ s.length ∧ (s ≠ [] → 0 < p.flatten.length) ∧
      PieceList (s.drop p.flatten.length) q := by
  induction h with
  | nil => intro fuel cur w _; exact ⟨[], [], w, by cases fuel <;> rfl, rfl, rfl, by simp, by simp, .nil⟩
  | @step x r ps h1 h3 ih =>
    intro fuel cur w hf
    cases fuel with
    | zero => simp at hf
    | succ n =>
      have hp := cpSize_pos x r
      have hl : (cpDeref (x :: r)).length = cpSize (x :: r) := by
        rw [cpDeref, List.length_take]; omega
      have hrec : ∀ w'', ∃ p q w', gLoop n ((x :: r).drop (cpSize (x :: r))) (cur + cpSize (x :: r)) w'' =
            .ok (cur + p.flatten.length, w') ∧ cpDeref (x :: r) :: ps = p ++ q ∧
          (x :: r).take p.flatten.length = p.flatten ∧ p.flatten.length ≤ (x :: r).length ∧
          (x :: r ≠ [] → 0 < p.flatten.length) ∧ PieceList ((x :: r).drop p.flatten.length) q := by
        intro w''
        obtain ⟨p, q, w', e1, e2, e3, e4, _, e6⟩ := ih n (cur + cpSize (x :: r)) w'' (by
          simp only [List.length_drop, List.length_cons] at hf ⊢; omega)
        refine ⟨cpDeref (x :: r) :: p, q, w', ?_, ?_, ?_, ?_, fun _ => ?_, ?_⟩
        · rw [e1, List.flatten_cons, List.length_append, hl, Nat.add_assoc]
        · rw [e2]; rfl
        · rw [List.flatten_cons, List.length_append, hl, List.take_add, e3]; rfl
        · rw [List.flatten_cons, List.length_append, hl]
          rw [List.length_drop] at e4
          omega
        · rw [List.flatten_cons, List.length_append, hl]; omega
        · rw [List.flatten_cons, List.length_append, hl, ← List.drop_drop]; exact e6
      simp only [gLoop, cpNext, if_pos h1, Out.ok_bind, cpSize_deref]
      split
      · exact hrec w
      · rename_i cp _
        split
        · refine ⟨[cpDeref (x :: r)], ps, gPush (gClass cp) w, ?_, rfl, ?_, ?_, fun _ => ?_, ?_⟩
          · simp only [List.flatten_singleton, hl]; rfl
          · simp only [List.flatten_singleton, hl]; rfl
          · simp only [List.flatten_singleton, hl]; exact h1
          · simp only [List.flatten_singleton, hl]; exact hp
          · simp only [List.flatten_singleton, hl]; exact h3
        · exact hrec _

theorem pieceList_toList : ∀ fuel (it : GIter) (p q : List Bytes), it.str.length ≤ fuel →
    it.current = p.flatten.length → it.str.take it.current = p.flatten → it.current ≤ it.str.length →
    (it.str ≠ [] → 0 < it.current) → PieceList (it.str.drop it.current) q →
    ∃ parts : List (List Bytes), it.toList fuel = .ok (parts.map List.flatten) ∧ (∀ p ∈ parts, p ≠ []) ∧
      (it.str ≠ [] → parts.flatten = p ++ q) ∧ (it.str = [] → parts = []) := by
  intro fuel
  induction fuel with
  | zero =>
    intro it p q hl _ _ _ _ _
    have : it.str = [] := List.length_eq_zero_iff.1 (by omega)
    exact ⟨[], by rw [GIter.toList, this]; rfl, by simp, fun h => absurd this h, fun _ => rfl⟩
  | succ n ih =>
    intro it p q hl hc ht hle hpos hq
    by_cases he : it.str = []
    · exact ⟨[], by rw [GIter.toList, he]; rfl, by simp, fun h => absurd he h, fun _ => rfl⟩
    · have hp := hpos he
      have hpn : p ≠ [] := by rintro rfl; rw [hc] at hp; simp at hp
      rw [GIter.toList, if_neg (by simpa using he), GIter.next, if_pos hle, gUpdate]
      obtain ⟨p', q', w', e1, e2, e3, e4, e5, e6⟩ := pieceList_loop hq _ 0 it.window (Nat.le_refl _)
      rw [e1]
      simp only [Out.ok_bind, Out.pure_eq, Nat.zero_add]
      obtain ⟨parts, g1, g2, g3, g4⟩ := ih ⟨it.str.drop it.current, p'.flatten.length, w'⟩ p' q'
        (by simp only [List.length_drop]; omega) rfl e3 e4 e5 e6
      refine ⟨p :: parts, ?_, ?_, fun _ => ?_, fun h => absurd h he⟩
      · rw [g1]
        simp only [Out.ok_bind, GIter.deref, ht, List.map_cons]
      · intro r hr
        rcases List.mem_cons.1 hr with rfl | hr
        · exact hpn
        · exact g2 r hr
      · rw [List.flatten_cons]
        by_cases hd : it.str.drop it.current = []
        · rw [g4 hd]
          rw [hd] at hq
          cases hq
          rfl
        · rw [g3 hd, e2]

/-- C41, for any bytes: clusters never cut what is read as one character. If the clusters of some bytes
can be read, so can their characters, and the clusters are consecutive groups of one or more of them. -/
theorem C41_whole (s : Bytes) (gs : List Bytes) (h : graphemes s = .ok gs) :
    ∃ parts : List (List Bytes), cpList s = .ok parts.flatten ∧ gs = parts.map List.flatten ∧
      ∀ p ∈ parts, p ≠ [] := by
  rcases graphemes_stays s with ⟨hs, -⟩ | ⟨-, hu⟩
  · obtain ⟨ps, hps⟩ := pieceList_of hs
    obtain ⟨p, q, w', e1, e2, e3, e4, e5, e6⟩ := pieceList_loop hps _ 0 gWindowInit (Nat.le_refl _)
    rw [graphemes, GIter.init, gUpdate, e1] at h
    simp only [Out.ok_bind, Out.pure_eq, Nat.zero_add] at h
    obtain ⟨parts, g1, g2, g3, g4⟩ := pieceList_toList s.length ⟨s, p.flatten.length, w'⟩ p q (Nat.le_refl _)
      rfl e3 e4 e5 e6
    rw [g1] at h
    cases h
    refine ⟨parts, ?_, rfl, g2⟩
    rw [cpList, pieceList_list hps _ (Nat.le_refl _)]
    by_cases hn : s = []
    · rw [g4 hn]; subst hn; cases hps; rfl
    · rw [g3 hn, e2]
  · rw [hu] at h; cases h

/-- C96, exactly, for every well-formed text that can be read to its end: its clusters are consecutive
groups of one or more of the characters that it is read as, and they meet where the rules of UAX 29 have a
boundary between characters with the numbers read – except at exceptional places, where the opposite is
true. -/
theorem C96_exact (cs : List Char) (h : spills false cs = false) :
    ∃ parts : List (List (Bytes × Nat)),
      cpList (enc cs) = .ok (parts.flatten.map (·.1)) ∧ parts.flatten.map (·.2) = readAs none cs ∧
      graphemes (enc cs) = .ok (parts.map fun p => (p.map (·.1)).flatten) ∧ (∀ p ∈ parts, p ≠ []) ∧
      ∀ i (_ : 0 < i) (hi : i < (readAs none cs).length),
        ((∃ k, ((parts.take k).flatten).length = i) ↔
          (joins (clusterClassesBefore (readAs none cs) i) (clusterClassOf (readAs none cs)[i]) = false ↔
            ¬ Exceptional (clusterClassesBefore (readAs none cs) i) (clusterClassOf (readAs none cs)[i]))) := by
  have hr := (reads_enc cs).1
  rw [h] at hr
  obtain ⟨ps, h1, h2⟩ := readList_of hr rfl
  have hf : (partsFrom gWindowInit [] ps).flatten = ps := by
    simpa using partsFrom_flatten gWindowInit [] ps
  refine ⟨partsFrom gWindowInit [] ps, ?_, ?_, readList_graphemes h1, partsFrom_ne_nil _ _ _, ?_⟩
  · rw [hf, cpList]; exact readList_list h1 _ (Nat.le_refl _)
  · rw [hf, h2]
  · rw [← h2]
    intro i h0 hi
    have hi' : i < ps.length := by simpa using hi
    have hc := partsFrom_cut ps gWindowInit [] i h0 hi'
    simp only [List.length_nil, Nat.zero_add] at hc
    rw [hc]
    have hn : nextRead (ps.drop i) = clusterClassOf ((ps.map (·.2))[i]'hi) := by
      rw [List.drop_eq_getElem_cons hi', nextRead, gClass_number]
      simp
    have hw := winRead_eq (ps.take i) []
    rw [show (([] : List GClass) ++ gWindowInit).take 16 = gWindowInit by decide, List.append_nil,
      List.map_take] at hw
    rw [hw, hn]
    obtain ⟨last, earlier, e⟩ : ∃ l e, clusterClassesBefore (ps.map (·.2)) i = l :: e := by
      cases h : clusterClassesBefore (ps.map (·.2)) i with
      | nil =>
        have : (clusterClassesBefore (ps.map (·.2)) i).length = i := by
          simp only [clusterClassesBefore, List.length_reverse, List.length_map, List.length_take]
          omega
        rw [h, List.length_nil] at this
        omega
      | cons l e => exact ⟨l, e, rfl⟩
    rw [e, show (((ps.map (·.2)).take i).map clusterClassOf).reverse = last :: earlier from e]
    exact shouldBreak_joins last earlier _

theorem clusterClassOf_char (c : Char) : clusterClassOf c.toNat = classOf c := rfl

/-- Text with "！" in the middle is cut into clusters, not the ones of the text: what is read for "！" and
the letter after it is one cluster, and an accent further on still belongs to the letter before it. Bytes
that are not text at all are cut as well. -/
example : spills false ['！', 'a', 'e', '\u0301', 'b'] = false ∧
    readAs none ['！', 'a', 'e', '\u0301', 'b'] = [0x1FC061, 0x65, 0x301, 0x62] ∧
    graphemes (enc ['！', 'a', 'e', '\u0301', 'b']) = .ok [enc ['！', 'a'], enc ['e', '\u0301'], enc ['b']] ∧
    graphemes [0x61, 0x80, 0x81, 0x62] = .ok [[0x61], [0x80, 0x81], [0x62]] := by decide +kernel

end ArgRouter.Props
