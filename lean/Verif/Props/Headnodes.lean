import Verif.Model.Headnodes
import Mathlib.Data.List.Forall2

/-! C59: `set_feeder_headnodes`. -/
namespace Ditto.Net
open Ditto

/-- what may become of a feeder: one of the nodes below its substation is its head node, either one whose name is that of the feeder, up
to the letters `x` around it, or one whose name `a>b` has the two parts of the name of the feeder `b->a`; only in the last case the
voltages of the feeder are set. The name of the feeder is compared in lower case, without dots and `_src`. -/
def HeadSet (d : List Edge) (volt : String → Option (Option ℚ)) (f f' : FeederMeta) : Prop :=
  ∃ name h, f.name = some name ∧ h ∈ successors d f.substation ∧
    ((h = cleanName name ∨ stripHead h = cleanName name) ∧ f' = { f with headnode := some h } ∨
    ∃ v, volt h = some v ∧ f' = { f with headnode := some h, nominal := v, operating := v } ∧
      (stripHead h = cleanName name ∨
        ∃ a b, stripX h.toList = a ++ '>' :: b ∧ '>' ∉ a ∧ '>' ∉ b ∧ (cleanName name).toList = b ++ '-' :: '>' :: a))

theorem splitGt_ne_nil (l : List Char) : splitGt l ≠ [] := by
  induction l with
  | nil => simp [splitGt]
  | cons c t ih =>
    rw [splitGt]
    split
    · simp
    · split <;> simp

theorem splitGt_one {l p : List Char} (h : splitGt l = [p]) : l = p ∧ '>' ∉ l := by
  induction l generalizing p with
  | nil => simp [splitGt] at h; simp [h]
  | cons c t ih =>
    rw [splitGt] at h
    split at h
    · exact absurd (List.cons.inj h).2 (splitGt_ne_nil t)
    · rename_i hc
      split at h
      · exact absurd ‹_› (splitGt_ne_nil t)
      · rename_i q qs hq
        simp only [List.cons.injEq] at h
        obtain ⟨rfl, rfl⟩ := h
        obtain ⟨h1, h2⟩ := ih hq
        exact ⟨by rw [h1], by simp [h2, Ne.symm hc]⟩

theorem splitGt_two {l a b : List Char} (h : splitGt l = [a, b]) : l = a ++ '>' :: b ∧ '>' ∉ a ∧ '>' ∉ b := by
  induction l generalizing a b with
  | nil => simp [splitGt] at h
  | cons c t ih =>
    rw [splitGt] at h
    split at h
    · rename_i hc
      simp only [List.cons.injEq] at h
      obtain ⟨rfl, h⟩ := h
      obtain ⟨h1, h2⟩ := splitGt_one h
      rw [hc, h1]
      exact ⟨rfl, by simp, by rw [← h1]; exact h2⟩
    · rename_i hc
      split at h
      · cases h
      · rename_i q qs hq
        simp only [List.cons.injEq] at h
        obtain ⟨rfl, rfl⟩ := h
        obtain ⟨h1, h2, h3⟩ := ih hq
        exact ⟨by rw [h1]; rfl, by simp [h2, Ne.symm hc], h3⟩

theorem splitGt_join {a b : List Char} (ha : '>' ∉ a) (hb : '>' ∉ b) : splitGt (a ++ '>' :: b) = [a, b] := by
  have one : ∀ b : List Char, '>' ∉ b → splitGt b = [b] := by
    intro b
    induction b with
    | nil => intro _; rfl
    | cons c t ih =>
      intro h
      rw [List.mem_cons, not_or] at h
      rw [splitGt, if_neg (Ne.symm h.1), ih h.2]
  induction a with
  | nil => rw [List.nil_append, splitGt, if_pos rfl, one b hb]
  | cons c t ih =>
    rw [List.mem_cons, not_or] at ha
    rw [List.cons_append, splitGt, if_neg (Ne.symm ha.1), ih ha.2]

theorem reverseHead_ok {h r : String} (hr : reverseHead h = .ok r) : ('>' ∉ h.toList ∧ r = h) ∨
    ∃ a b, h.toList = a ++ '>' :: b ∧ '>' ∉ a ∧ '>' ∉ b ∧ r.toList = b ++ '-' :: '>' :: a := by
  unfold reverseHead at hr
  split at hr
  · split at hr
    · rename_i a b hab
      cases hr
      obtain ⟨h1, h2, h3⟩ := splitGt_two hab
      exact Or.inr ⟨a, b, h1, h2, h3, by simp⟩
    · cases hr
  · cases hr
    exact Or.inl ⟨‹_›, rfl⟩

theorem reverseHeads_ok {hs rs : List String} (h : reverseHeads hs = .ok rs) : List.Forall₂ (fun h r => reverseHead h = .ok r) hs rs := by
  induction hs generalizing rs with
  | nil => cases h; exact .nil
  | cons x hs ih =>
    unfold reverseHeads at h
    split at h
    · cases h
    · split at h
      · cases h
      · cases h
        exact .cons ‹_› (ih ‹_›)

theorem zip_reverse {hs rs : List String} (h : reverseHeads (hs.map stripHead) = .ok rs) {p : String × String} (hp : p ∈ hs.zip rs) :
    p.1 ∈ hs ∧ reverseHead (stripHead p.1) = .ok p.2 := by
  have hf := reverseHeads_ok h
  clear h
  induction hs generalizing rs with
  | nil => simp at hp
  | cons x hs ih =>
    rw [List.map_cons] at hf
    cases hf with
    | cons h1 h2 =>
      rw [List.zip_cons_cons, List.mem_cons] at hp
      rcases hp with rfl | hp
      · exact ⟨List.mem_cons_self, h1⟩
      · exact ⟨List.mem_cons_of_mem _ (ih hp h2).1, (ih hp h2).2⟩

/-- every feeder keeps its attributes or gets a head node below its substation -/
theorem C59_headnode_partial {d : List Edge} {volt : String → Option (Option ℚ)} {fs fs' : List FeederMeta}
    (h : setHeadnodes d volt fs = .ok fs') : List.Forall₂ (fun f f' => f' = f ∨ HeadSet d volt f f') fs fs' := by
  induction fs generalizing fs' with
  | nil => cases h; exact .nil
  | cons f fs ih =>
    unfold setHeadnodes at h
    split at h
    · cases h
    rename_i f' hf
    split at h
    · cases h
    cases h
    refine .cons ?_ (ih ‹_›)
    unfold setHeadnode at hf
    split at hf
    · cases hf
    rename_i name hname
    split at hf
    on_goal 2 => cases hf
    simp only at hf
    split at hf
    · cases hf
      exact Or.inr ⟨name, cleanName name, hname, ‹_›, Or.inl ⟨Or.inl rfl, rfl⟩⟩
    split at hf
    · rename_i x hx
      cases hf
      have := List.find?_some hx
      exact Or.inr ⟨name, x, hname, List.mem_of_find?_eq_some hx, Or.inl ⟨Or.inr (by simpa using this), rfl⟩⟩
    split at hf
    · cases hf
    rename_i rs hrs
    split at hf
    · cases hf; exact Or.inl rfl
    · rename_i p hp
      split at hf
      · cases hf
      · rename_i v hv
        cases hf
        obtain ⟨h1, h2⟩ := zip_reverse hrs (List.mem_of_find?_eq_some hp)
        have h3 : p.2 = cleanName name := by simpa using List.find?_some hp
        refine Or.inr ⟨name, p.1, hname, h1, Or.inr ⟨v, hv, rfl, ?_⟩⟩
        rcases reverseHead_ok h2 with ⟨_, h4⟩ | ⟨a, b, h4, h5, h6, h7⟩
        · exact Or.inl (by rw [← h4, h3])
        · refine Or.inr ⟨a, b, ?_, h5, h6, by rw [← h3, h7]⟩
          rw [← h4, stripHead, String.toList_ofList]

/-- a substation that is not in the network -/
theorem C59_unknown_violated (d : List Edge) (volt : String → Option (Option ℚ)) (f : FeederMeta) (fs : List FeederMeta) (name : String)
    (hn : f.name = some name) (hs : f.substation ∉ diNodes d) : setHeadnodes d volt (f :: fs) = .error .networkXError := by
  simp only [setHeadnodes, setHeadnode, hn, if_neg hs]

theorem dropWhile_x {l : List Char} (h : l.head? ≠ some 'x') : l.dropWhile (· = 'x') = l := by
  cases l with
  | nil => rfl
  | cons c t =>
    rw [List.dropWhile_cons_of_neg]
    simpa using h

/-- the letters `x` at the end only -/
theorem stripX_append {p q : List Char} (hp : p.head? ≠ some 'x') (hne : p ≠ []) (hl : p.getLast? ≠ some 'x') :
    ∃ q', stripX (p ++ q) = p ++ q' ∧ ∃ xs, q = q' ++ xs := by
  unfold stripX
  have h0 : (p ++ q).head? ≠ some 'x' := by
    cases p with
    | nil => exact absurd rfl hne
    | cons c t => simpa using hp
  rw [dropWhile_x h0]
  rw [List.reverse_append, List.dropWhile_append]
  split
  · rename_i he
    refine ⟨[], ?_, q, rfl⟩
    rw [dropWhile_x (by rw [List.head?_reverse]; exact hl), List.reverse_reverse, List.append_nil]
  · refine ⟨((q.reverse).dropWhile (· = 'x')).reverse, by simp, ((q.reverse).takeWhile (· = 'x')).reverse, ?_⟩
    rw [← List.reverse_append, List.takeWhile_append_dropWhile, List.reverse_reverse]

theorem split_first {a b c d : List Char} (h : a ++ '>' :: b = c ++ '>' :: d) (ha : '>' ∉ a) (hc : '>' ∉ c) : a = c ∧ b = d := by
  induction a generalizing c with
  | nil =>
    cases c with
    | nil => simpa using h
    | cons x c => simp at h; exact absurd (by rw [← h.1]; simp) hc
  | cons x a ih =>
    cases c with
    | nil => simp at h; exact absurd (by rw [h.1]; simp) ha
    | cons y c =>
      simp only [List.cons_append, List.cons.injEq] at h
      simp only [List.mem_cons, not_or] at ha hc
      obtain ⟨h1, h2⟩ := ih h.2 ha.2 hc.2
      exact ⟨by rw [h.1, h1], h2⟩

/-- The documented convention, a feeder called `a->b` with the head node `b->a_S` below the substation, is not recognised: nothing is set.
(The names are already in lower case and without dots and `_src`; `a` and `b` differ, `b` does not begin with `x` or end with `-`.) -/
theorem C59_convention_violated (d : List Edge) (volt : String → Option (Option ℚ)) (f : FeederMeta) (a b suffix : List Char)
    (ha : '>' ∉ a) (hb : '>' ∉ b) (hs : '>' ∉ suffix) (hab : a ≠ b) (hbx : b.head? ≠ some 'x') (hbl : b.getLast? ≠ some '-')
    (hbne : b ≠ []) (hname : f.name = some (String.ofList (a ++ ['-', '>'] ++ b)))
    (hclean : cleanName (String.ofList (a ++ ['-', '>'] ++ b)) = String.ofList (a ++ ['-', '>'] ++ b))
    (hsub : f.substation ∈ diNodes d)
    (hsucc : successors d f.substation = [String.ofList (b ++ ['-', '>'] ++ (a ++ suffix))]) : setHeadnodes d volt [f] = .ok [f] := by
  obtain ⟨q', hq, xs, hxs⟩ := stripX_append (p := b ++ ['-', '>']) (q := a ++ suffix)
    (by cases b with
        | nil => exact absurd rfl hbne
        | cons c t => simpa using hbx) (by simp) (by simp)
  have hq' : '>' ∉ q' := by
    intro h
    have : '>' ∈ a ++ suffix := by rw [hxs]; exact List.mem_append_left _ h
    rcases List.mem_append.1 this with h | h
    · exact ha h
    · exact hs h
  have hb' : '>' ∉ b ++ ['-'] := by simp [hb]
  have ha' : '>' ∉ a ++ ['-'] := by simp [ha]
  have hne : a ++ ['-'] ≠ b ++ ['-'] := fun h => hab (List.append_cancel_right h)
  have e1 : cleanName (String.ofList (a ++ ['-', '>'] ++ b)) ∉ successors d f.substation := by
    rw [hclean, hsucc, List.mem_singleton]
    intro h
    have h := String.ofList_injective h
    have : (a ++ ['-']) ++ '>' :: b = (b ++ ['-']) ++ '>' :: (a ++ suffix) := by simpa using h
    exact hne (split_first this ha' hb').1
  have hstrip : stripHead (String.ofList (b ++ ['-', '>'] ++ (a ++ suffix))) = String.ofList (b ++ ['-', '>'] ++ q') := by
    unfold stripHead
    rw [String.toList_ofList, hq]
  have e2 : (successors d f.substation).find? (fun h => stripHead h = cleanName (String.ofList (a ++ ['-', '>'] ++ b))) = none := by
    rw [hsucc, List.find?_eq_none]
    intro x hx
    rw [List.mem_singleton.1 hx, hstrip, hclean, decide_eq_true_eq]
    intro h
    have h := String.ofList_injective h
    have : (b ++ ['-']) ++ '>' :: q' = (a ++ ['-']) ++ '>' :: b := by simpa using h
    exact hne (split_first this hb' ha').1.symm
  have hrev : reverseHead (String.ofList (b ++ ['-', '>'] ++ q')) = .ok (String.ofList (q' ++ ['-', '>'] ++ (b ++ ['-']))) := by
    unfold reverseHead
    rw [String.toList_ofList]
    have : b ++ ['-', '>'] ++ q' = (b ++ ['-']) ++ '>' :: q' := by simp
    rw [if_pos (by simp), this, splitGt_join hb' hq']
  have e3 : reverseHeads ((successors d f.substation).map stripHead) = .ok [String.ofList (q' ++ ['-', '>'] ++ (b ++ ['-']))] := by
    rw [hsucc, List.map_singleton, hstrip]
    simp only [reverseHeads, hrev]
  have e4 : String.ofList (q' ++ ['-', '>'] ++ (b ++ ['-'])) ≠ String.ofList (a ++ ['-', '>'] ++ b) := by
    intro h
    have h := String.ofList_injective h
    have h := congrArg List.getLast? h
    rw [← List.append_assoc, List.getLast?_append, List.getLast?_append (l := a ++ ['-', '>'])] at h
    simp only [List.getLast?_singleton, Option.some_or] at h
    cases hb2 : b.getLast? with
    | none => rw [List.getLast?_eq_none_iff] at hb2; exact hbne hb2
    | some c =>
      rw [hb2] at h hbl
      simp only [Option.some_or] at h
      exact hbl h.symm
  rw [hclean, hsucc] at e1 e2
  rw [hsucc] at e3
  simp only [setHeadnodes, setHeadnode, hname, if_pos hsub, hsucc, hclean, if_neg e1, e2, e3, List.zip_cons_cons, List.zip_nil_left]
  rw [List.find?_cons_of_neg (by rw [decide_eq_true_eq]; exact e4), List.find?_nil]

/-- what is recognised for a feeder `a->b` is a head node `b>a`: then the head node and the voltages are set -/
theorem C59_reversed (d : List Edge) (volt : String → Option (Option ℚ)) (f : FeederMeta) (a b : List Char) (v : Option ℚ)
    (ha : '>' ∉ a) (hb : '>' ∉ b) (hname : f.name = some (String.ofList (a ++ ['-', '>'] ++ b)))
    (hclean : cleanName (String.ofList (a ++ ['-', '>'] ++ b)) = String.ofList (a ++ ['-', '>'] ++ b))
    (hstrip : stripX (b ++ ['>'] ++ a) = b ++ ['>'] ++ a) (hab : b ≠ a ++ ['-'])
    (hsub : f.substation ∈ diNodes d) (hsucc : successors d f.substation = [String.ofList (b ++ ['>'] ++ a)])
    (hv : volt (String.ofList (b ++ ['>'] ++ a)) = some v) :
    setHeadnodes d volt [f] = .ok [{ f with headnode := some (String.ofList (b ++ ['>'] ++ a)), nominal := v, operating := v }] := by
  have ha' : '>' ∉ a ++ ['-'] := by simp [ha]
  have hne : b ++ ['>'] ++ a ≠ a ++ ['-', '>'] ++ b := by
    intro h
    have : b ++ '>' :: a = (a ++ ['-']) ++ '>' :: b := by simpa using h
    exact hab (split_first this hb ha').1
  have hst : stripHead (String.ofList (b ++ ['>'] ++ a)) = String.ofList (b ++ ['>'] ++ a) := by
    unfold stripHead
    rw [String.toList_ofList, hstrip]
  have e1 : cleanName (String.ofList (a ++ ['-', '>'] ++ b)) ∉ successors d f.substation := by
    rw [hclean, hsucc, List.mem_singleton]
    exact fun h => hne (String.ofList_injective h).symm
  have e2 : (successors d f.substation).find? (fun h => stripHead h = cleanName (String.ofList (a ++ ['-', '>'] ++ b))) = none := by
    rw [hsucc, List.find?_eq_none]
    intro x hx
    rw [List.mem_singleton.1 hx, hst, hclean, decide_eq_true_eq]
    exact fun h => hne (String.ofList_injective h)
  have hrev : reverseHead (String.ofList (b ++ ['>'] ++ a)) = .ok (String.ofList (a ++ ['-', '>'] ++ b)) := by
    unfold reverseHead
    rw [String.toList_ofList]
    have : b ++ ['>'] ++ a = b ++ '>' :: a := by simp
    rw [if_pos (by simp), this, splitGt_join hb ha]
  have e3 : reverseHeads ((successors d f.substation).map stripHead) = .ok [String.ofList (a ++ ['-', '>'] ++ b)] := by
    rw [hsucc, List.map_singleton, hst]
    simp only [reverseHeads, hrev]
  rw [hclean, hsucc] at e1 e2
  rw [hsucc] at e3
  simp only [setHeadnodes, setHeadnode, hname, if_pos hsub, hsucc, hclean, if_neg e1, e2, e3, List.zip_cons_cons, List.zip_nil_left]
  rw [List.find?_cons_of_pos (by rw [decide_eq_true_eq])]
  simp only [hv]

/-- a head node with two `>` makes the method fail, also if another one has the right name -/
theorem C59_two_violated : ∃ (d : List Edge) (volt : String → Option (Option ℚ)) (f : FeederMeta),
    successors d f.substation = ["c>b>a", "b>a"] ∧ f.name = some "a->b" ∧ setHeadnodes d volt [f] = .error .valueError :=
  ⟨[⟨"s", "c>b>a", none, none⟩, ⟨"s", "b>a", none, none⟩], fun _ => some (some 7200), ⟨some "a->b", "s", none, none, none⟩,
    by decide, rfl, by decide +kernel⟩

/-! ### examples -/

example : setHeadnodes [⟨"s", "b>a", none, none⟩, ⟨"s", "xf1x", none, none⟩] (fun _ => some (some 7200))
    [⟨some "A->b", "s", none, none, none⟩, ⟨some "f.1_SRC", "s", none, none, none⟩] =
    .ok [⟨some "A->b", "s", some "b>a", some 7200, some 7200⟩, ⟨some "f.1_SRC", "s", some "xf1x", none, none⟩] := by decide +kernel

/-- the hypotheses of `C59_convention_violated` -/
example : cleanName "a->b" = "a->b" ∧ setHeadnodes [⟨"s", "b->a_s", none, none⟩] (fun _ => some (some 7200))
    [⟨some "a->b", "s", none, none, none⟩] = .ok [⟨some "a->b", "s", none, none, none⟩] := by decide +kernel

end Ditto.Net
