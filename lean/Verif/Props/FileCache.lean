import Verif.Spec.FileCache
import Verif.Lemmas.Py

/-! C117 and C118: what is in the directory of cached files. -/

namespace Brel

/-! ## C117: bytes -/

theorem addFile_ok_iff {fs fs' : ByteFiles} {uri : String} {b : ByteArray} : addFile fs uri b = .ok fs' ↔ b.IsValidUTF8 ∧ fs' = fs.set (fileName uri) b := by
  unfold addFile String.fromUTF8?
  by_cases h : b.IsValidUTF8
  · rw [dif_pos h]
    constructor
    · intro e
      exact ⟨h, (Except.ok.inj e).symm⟩
    · rintro ⟨_, rfl⟩
      rfl
  · rw [dif_neg h]
    constructor
    · intro e; cases e
    · rintro ⟨h', _⟩; exact absurd h' h

theorem addFile_error {fs : ByteFiles} {uri : String} {b : ByteArray} (h : ¬ b.IsValidUTF8) : addFile fs uri b = .error .valueError := by
  unfold addFile String.fromUTF8?
  rw [dif_neg h]

theorem getFile_set (fs : ByteFiles) (uri : String) (b : ByteArray) : getFile (fs.set (fileName uri) b) uri = .ok b := by
  unfold getFile
  rw [Dict.get?_set, if_pos rfl]

/-- C117: a file that was added is read byte for byte as it was, and no other file is changed; it is added exactly if it is text in UTF-8. -/
theorem C117_added (fs : ByteFiles) (uri : String) (b : ByteArray) :
    (b.IsValidUTF8 → ∃ fs', addFile fs uri b = .ok fs' ∧ getFile fs' uri = .ok b ∧ ∀ v, fileName v ≠ fileName uri → getFile fs' v = getFile fs v) ∧
      (¬ b.IsValidUTF8 → addFile fs uri b = .error .valueError) := by
  refine ⟨fun h => ⟨_, addFile_ok_iff.2 ⟨h, rfl⟩, getFile_set _ _ _, fun v hv => ?_⟩, addFile_error⟩
  unfold getFile
  rw [Dict.get?_set, if_neg (fun e => hv e.symm)]

/-- What one call does. -/
theorem fetchBytes_cases (fs : ByteFiles) (d : Need) : (fetchBytes fs d).files = fs ∧ ((∃ b, fs.get? (fileName d.uri) = some b ∧ (fetchBytes fs d).result = .ok b) ∨ ∃ e, (fetchBytes fs d).result = .error e) ∨
    ∃ b, d.offers b ∧ b.IsValidUTF8 ∧ (fetchBytes fs d).files = fs.set d.writes b ∧ (fetchBytes fs d).result = .ok b := by
  have absent : fs.has (fileName d.uri) = false → ∃ e, getFile fs d.uri = .error e := by
    intro h
    rw [Dict.has_eq] at h
    unfold getFile
    cases hg : fs.get? (fileName d.uri) with
    | none => exact ⟨_, rfl⟩
    | some b => rw [hg] at h; cases h
  unfold fetchBytes hasFile
  cases hh : fs.has (fileName d.uri) with
  | true =>
    rw [if_pos rfl]
    refine Or.inl ⟨rfl, Or.inl ?_⟩
    rw [Dict.has_eq] at hh
    obtain ⟨b, hb⟩ := Option.isSome_iff_exists.1 hh
    exact ⟨b, hb, by unfold getFile; rw [hb]⟩
  | false =>
    obtain ⟨e0, he0⟩ := absent hh
    rw [if_neg Bool.false_ne_true]
    cases hr : d.remote with
    | true =>
      rw [if_pos rfl]
      cases hw : d.web with
      | none => exact Or.inl ⟨rfl, Or.inr ⟨_, rfl⟩⟩
      | some r =>
        unfold downloadAndAdd
        dsimp only
        by_cases hf : r.failed = true
        · rw [if_pos hf]
          exact Or.inl ⟨rfl, Or.inr ⟨e0, he0⟩⟩
        · rw [if_neg hf]
          by_cases hv : r.content.IsValidUTF8
          · rw [addFile_ok_iff.2 ⟨hv, rfl⟩]
            refine Or.inr ⟨r.content, ?_, hv, ?_, getFile_set _ _ _⟩
            · unfold Need.offers
              rw [if_pos hr]
              refine ⟨r, hw, ?_, rfl⟩
              unfold Response.failed at hf
              simpa using hf
            · unfold Need.writes
              rw [if_pos hr]
          · rw [addFile_error hv]
            exact Or.inl ⟨rfl, Or.inr ⟨e0, he0⟩⟩
    | false =>
      rw [if_neg Bool.false_ne_true]
      cases hw : d.disk with
      | none => exact Or.inl ⟨rfl, Or.inr ⟨_, rfl⟩⟩
      | some b =>
        unfold copyAndAdd
        dsimp only
        by_cases hv : b.IsValidUTF8
        · rw [addFile_ok_iff.2 ⟨hv, rfl⟩]
          refine Or.inr ⟨b, ?_, hv, ?_, getFile_set _ _ _⟩
          · unfold Need.offers
            rw [if_neg (by rw [hr]; exact Bool.false_ne_true), hw]
          · unfold Need.writes
            rw [if_neg (by rw [hr]; exact Bool.false_ne_true)]
        · rw [addFile_error hv]
          exact Or.inl ⟨rfl, Or.inr ⟨_, rfl⟩⟩

theorem fetchHistory_length (fs : ByteFiles) (ds : List Need) : (fetchHistory fs ds).1.length = ds.length := by
  induction ds generalizing fs with
  | nil => rfl
  | cons d ds ih =>
    unfold fetchHistory
    dsimp only
    rw [List.length_cons, ih, List.length_cons]

theorem fetchHistory_source (fs : ByteFiles) (ds : List Need) (P : String → ByteArray → Prop) (hP : ∀ n b, fs.get? n = some b → P n b) :
    ∀ (i : Nat) (b : ByteArray) (d : Need), ds[i]? = some d → (fetchHistory fs ds).1[i]? = some (Except.ok b) →
      P (fileName d.uri) b ∨ (∃ (j : Nat) (e : Need), j < i ∧ ds[j]? = some e ∧ e.offers b ∧ b.IsValidUTF8 ∧ e.writes = fileName d.uri) ∨ (d.offers b ∧ b.IsValidUTF8) := by
  induction ds generalizing fs P with
  | nil => intro i b d h; simp at h
  | cons x ds ih =>
    intro i b d hd hr
    unfold fetchHistory at hr
    dsimp only at hr
    have hc := fetchBytes_cases fs x
    cases i with
    | zero =>
      rw [List.getElem?_cons_zero, Option.some.injEq] at hd hr
      subst hd
      rcases hc with ⟨_, ⟨b', h1, h2⟩ | ⟨e, h2⟩⟩ | ⟨b', h1, h2, _, h3⟩
      · rw [h2] at hr
        obtain rfl := Except.ok.inj hr
        exact Or.inl (hP _ _ h1)
      · rw [h2] at hr; cases hr
      · rw [h3] at hr
        obtain rfl := Except.ok.inj hr
        exact Or.inr (Or.inr ⟨h1, h2⟩)
    | succ i =>
      rw [List.getElem?_cons_succ] at hd hr
      have := ih (fetchBytes fs x).files (fun n c => P n c ∨ x.writes = n ∧ x.offers c ∧ c.IsValidUTF8) (by
        intro n c hn
        rcases hc with ⟨h1, _⟩ | ⟨b', h1, h2, h3, _⟩
        · rw [h1] at hn; exact Or.inl (hP _ _ hn)
        · rw [h3, Dict.get?_set] at hn
          by_cases e : x.writes = n
          · rw [if_pos (by simpa [eq_comm] using e)] at hn
            obtain rfl := Option.some.inj hn
            exact Or.inr ⟨e, h1, h2⟩
          · rw [if_neg (by simpa [eq_comm] using e)] at hn
            exact Or.inl (hP _ _ hn)) i b d hd hr
      rcases this with (h | ⟨h1, h2, h3⟩) | ⟨j, e, h1, h2, h3, h4, h5⟩ | h
      · exact Or.inl h
      · exact Or.inr (Or.inl ⟨0, x, by omega, rfl, h2, h3, h1⟩)
      · exact Or.inr (Or.inl ⟨j + 1, e, by omega, by simpa using h2, h3, h4, h5⟩)
      · exact Or.inr (Or.inr h)

/-- C117: whatever documents are needed, in whatever order, by however many openings, and whatever the world offers each time: the content of a document is, byte for byte, a content that the
world offered, for this document now or earlier for one that is stored under its name (C25 tells which share a name). -/
theorem C117_history (ds : List Need) (i : Nat) (b : ByteArray) (d : Need) (hd : ds[i]? = some d) (hr : (fetchHistory [] ds).1[i]? = some (Except.ok b)) :
    b.IsValidUTF8 ∧ (d.offers b ∨ ∃ (j : Nat) (e : Need), j < i ∧ ds[j]? = some e ∧ e.offers b ∧ e.writes = fileName d.uri) := by
  rcases fetchHistory_source [] ds (fun _ _ => False) (by intro n b h; cases h) i b d hd hr with h | ⟨j, e, h1, h2, h3, h4, h5⟩ | ⟨h1, h2⟩
  · exact h.elim
  · exact ⟨h4, Or.inr ⟨j, e, h1, h2, h3, h5⟩⟩
  · exact ⟨h2, Or.inl h1⟩

/-- A cached file stays as it is. -/
theorem fetchBytes_keeps {fs : ByteFiles} {d : Need} (hd : d.writes = fileName d.uri) {n : String} {b : ByteArray} (h : fs.get? n = some b) : (fetchBytes fs d).files.get? n = some b := by
  rcases fetchBytes_cases fs d with ⟨h1, _⟩ | ⟨c, _, _, h3, _⟩
  · rw [h1]; exact h
  · by_cases e : fileName d.uri = n
    · have : fetchBytes fs d = ⟨fs, [], getFile fs d.uri⟩ := by
        unfold fetchBytes hasFile
        rw [Dict.has_eq, e, h]
        rfl
      rw [this]
      exact h
    · rw [h3, hd, Dict.get?_set, if_neg e]
      exact h

theorem fetchHistory_cached {fs : ByteFiles} {ds : List Need} (hds : ∀ d ∈ ds, d.writes = fileName d.uri) {n : String} {b : ByteArray} (h : fs.get? n = some b) {j : Nat} {d : Need} (hj : ds[j]? = some d)
    (hn : fileName d.uri = n) : (fetchHistory fs ds).1[j]? = some (.ok b) := by
  induction ds generalizing fs j with
  | nil => simp at hj
  | cons x ds ih =>
    unfold fetchHistory
    dsimp only
    cases j with
    | zero =>
      rw [List.getElem?_cons_zero, Option.some.injEq] at hj ⊢
      subst hj
      unfold fetchBytes hasFile
      rw [Dict.has_eq, hn, h]
      unfold getFile
      rw [hn, h]
      rfl
    | succ j =>
      rw [List.getElem?_cons_succ] at hj ⊢
      exact ih (fun d hd => hds d (List.mem_cons_of_mem _ hd)) (fetchBytes_keeps (hds x (by simp)) h) hj

/-- C117: once a document was read, it is read again with the same bytes, whatever happens in between and whatever the world offers then. -/
theorem C117_again {ds : List Need} (hds : ∀ d ∈ ds, d.writes = fileName d.uri) (fs : ByteFiles) {i j : Nat} {d e : Need} {b : ByteArray} (hi : ds[i]? = some d) (hj : ds[j]? = some e) (hij : i < j)
    (hn : fileName e.uri = fileName d.uri) (hr : (fetchHistory fs ds).1[i]? = some (Except.ok b)) : (fetchHistory fs ds).1[j]? = some (.ok b) := by
  induction ds generalizing fs i j with
  | nil => simp at hi
  | cons x ds ih =>
    unfold fetchHistory at hr ⊢
    dsimp only at hr ⊢
    cases j with
    | zero => omega
    | succ j =>
      rw [List.getElem?_cons_succ] at hj ⊢
      cases i with
      | succ i =>
        rw [List.getElem?_cons_succ] at hi hr
        exact ih (fun d hd => hds d (List.mem_cons_of_mem _ hd)) _ hi hj (by omega) hr
      | zero =>
        rw [List.getElem?_cons_zero, Option.some.injEq] at hi hr
        subst hi
        refine fetchHistory_cached (fun d hd => hds d (List.mem_cons_of_mem _ hd)) ?_ hj hn
        rcases fetchBytes_cases fs x with ⟨h1, ⟨c, h2, h3⟩ | ⟨c, h3⟩⟩ | ⟨c, _, _, h2, h3⟩
        · rw [h3] at hr
          cases hr
          rw [h1]
          exact h2
        · rw [h3] at hr; cases hr
        · rw [h3] at hr
          cases hr
          rw [h2, hds x (by simp), Dict.get?_set, if_pos rfl]

/-- C117 is false in full: what the server has, with a status of success, is refused if it is not text in UTF-8; nothing is stored, and the report says that the file is not available, with that
status. -/
theorem C117_encoding_false (fs : ByteFiles) (d : Need) (b : ByteArray) (status : Nat) (hs : status < 400) (hb : ¬ b.IsValidUTF8) (hr : d.remote = true) (hw : d.web = some ⟨status, b⟩)
    (hn : fs.get? (fileName d.uri) = none) : d.offers b ∧ fetchBytes fs d = ⟨fs, [(d.uri, status)], .error .fileNotFoundError⟩ := by
  refine ⟨?_, ?_⟩
  · unfold Need.offers
    rw [if_pos hr]
    exact ⟨_, hw, by dsimp only; omega, rfl⟩
  · unfold fetchBytes hasFile
    rw [Dict.has_eq, hn, if_neg (by simp), if_pos hr, hw]
    unfold downloadAndAdd
    dsimp only
    have : Response.failed ⟨status, b⟩ = false := by
      unfold Response.failed
      simp only [Bool.and_eq_false_iff, decide_eq_false_iff_not]
      exact Or.inl (by omega)
    rw [this, if_neg Bool.false_ne_true, addFile_error hb]
    dsimp only
    unfold getFile
    rw [hn]

/-- C117: a local file that is not text in UTF-8 is refused with a `ValueError`, without a report. -/
theorem C117_local_encoding_false (fs : ByteFiles) (d : Need) (b : ByteArray) (hb : ¬ b.IsValidUTF8) (hr : d.remote = false) (hw : d.disk = some b) (hn : fs.get? (fileName d.uri) = none) :
    d.offers b ∧ fetchBytes fs d = ⟨fs, [], .error .valueError⟩ := by
  have hr' : ¬ d.remote = true := by rw [hr]; exact Bool.false_ne_true
  refine ⟨?_, ?_⟩
  · unfold Need.offers
    rw [if_neg hr', hw]
  · unfold fetchBytes hasFile
    rw [Dict.has_eq, hn, if_neg (by simp), if_neg hr', hw]
    unfold copyAndAdd
    dsimp only
    rw [addFile_error hb]

/-- The bytes of `<é/>` in ISO 8859-1. -/
def latin1 : ByteArray := ⟨#[0x3c, 0xe9, 0x2f, 0x3e]⟩

/-- Test: the hypotheses of the negations are met by a document in another encoding, and those of the positive theorems by one in UTF-8 (with a byte order mark and line ends of both kinds). -/
example : ¬ latin1.IsValidUTF8 ∧ (⟨#[0xef, 0xbb, 0xbf, 0x3c, 0xc3, 0xa9, 0x2f, 0x3e, 0x0d, 0x0a, 0x0a]⟩ : ByteArray).IsValidUTF8 := by decide +kernel

example : (fetchHistory [] [⟨"http://ex/a.xml", true, "", some ⟨200, "<a/>".toUTF8⟩, none⟩, ⟨"http://ex/b.xml", true, "", some ⟨404, "<b/>".toUTF8⟩, none⟩, ⟨"http://ex/a.xml", true, "", none, none⟩]).1.map
    (fun r => r.toOption.map (·.toList)) = [some "<a/>".toUTF8.toList, none, some "<a/>".toUTF8.toList] := by decide +kernel

/-! ## C118: interruptions and several processes -/

/-- What holds at every moment: the file is not longer than the content, and each byte of the content is in its place or still to be written by somebody who has opened the file, or the one who
was to write it was ended. -/
structure Covered (c : List UInt8) (w : World) : Prop where
  length : ∀ f, w.file = some f → f.length ≤ c.length
  bytes : ∀ f p, w.file = some f → p < c.length → f[p]? = c[p]? ∨ (∃ n ≤ p, Proc.writing n ∈ w.procs) ∨ Proc.dead true ∈ w.procs
  position : ∀ n, Proc.writing n ∈ w.procs → n ≤ c.length ∧ w.file.isSome = true

theorem writeAt_length (f : List UInt8) (n : Nat) (d : List UInt8) : (writeAt f n d).length = max (n + d.length) f.length := by
  unfold writeAt
  simp only [List.length_append, List.length_take, List.length_replicate, List.length_drop]
  omega

theorem writeAt_get (f : List UInt8) (n : Nat) (d : List UInt8) (p : Nat) :
    (writeAt f n d)[p]? = if p < n then (if p < f.length then f[p]? else some 0) else if p < n + d.length then d[p - n]? else f[p]? := by
  have hl : (List.take n (f ++ List.replicate (n - f.length) 0)).length = n := by
    simp only [List.length_take, List.length_append, List.length_replicate]
    omega
  unfold writeAt
  rw [List.append_assoc, List.getElem?_append, hl]
  by_cases h : p < n
  · rw [if_pos h, if_pos h, List.getElem?_take_of_lt h, List.getElem?_append]
    by_cases h2 : p < f.length
    · rw [if_pos h2, if_pos h2]
    · rw [if_neg h2, if_neg h2, List.getElem?_replicate, if_pos (by omega)]
  · rw [if_neg h, if_neg h, List.getElem?_append]
    by_cases h2 : p < n + d.length
    · rw [if_pos h2, if_pos (by omega)]
    · rw [if_neg h2, if_neg (by omega), List.getElem?_drop]
      congr 1
      omega

theorem mem_set_of_ne {l : List Proc} {i : Nat} {p q a : Proc} (hp : l[i]? = some p) (hq : q ∈ l) (hne : q ≠ p) : q ∈ l.set i a := by
  obtain ⟨j, hj⟩ := List.mem_iff_getElem?.1 hq
  refine List.mem_iff_getElem?.2 ⟨j, ?_⟩
  rw [List.getElem?_set_ne, hj]
  rintro rfl
  rw [hp] at hj
  exact hne (Option.some.inj hj).symm

theorem mem_set_self {l : List Proc} {i : Nat} {p a : Proc} (hp : l[i]? = some p) : a ∈ l.set i a := by
  refine List.mem_iff_getElem?.2 ⟨i, ?_⟩
  obtain ⟨hi, _⟩ := List.getElem?_eq_some_iff.1 hp
  rw [List.getElem?_set_self hi]

/-- A step that leaves the file as it is, of a process that has nothing to write any more. -/
theorem Covered.stay {c : List UInt8} {w : World} (h : Covered c w) {i : Nat} {p p' : Proc} (hp : w.procs[i]? = some p) (h1 : ∀ n, p = .writing n → c.length ≤ n ∨ p' = .dead true) (h2 : p ≠ .dead true)
    (h3 : ∀ n, p' ≠ .writing n) : Covered c ⟨w.file, w.procs.set i p'⟩ := by
  refine ⟨h.length, ?_, ?_⟩
  · intro f q hf hq
    rcases h.bytes f q hf hq with e | ⟨n, hn, hm⟩ | hd
    · exact Or.inl e
    · by_cases e : Proc.writing n = p
      · rcases h1 n e.symm with h | h
        · omega
        · exact Or.inr (Or.inr (h ▸ mem_set_self hp))
      · exact Or.inr (Or.inl ⟨n, hn, mem_set_of_ne hp hm e⟩)
    · exact Or.inr (Or.inr (mem_set_of_ne hp hd (Ne.symm h2)))
  · intro n hn
    rcases List.mem_or_eq_of_mem_set hn with hn | hn
    · exact h.position n hn
    · exact absurd hn.symm (h3 n)

theorem Covered.same {c : List UInt8} {w : World} (h : Covered c w) {i : Nat} {p : Proc} (hp : w.procs[i]? = some p) : Covered c ⟨w.file, w.procs.set i p⟩ := by
  obtain ⟨hi, he⟩ := List.getElem?_eq_some_iff.1 hp
  have : w.procs.set i p = w.procs := by rw [← he, List.set_getElem_self]
  rw [this]
  exact h

theorem Covered.step {c : List UInt8} {w : World} (h : Covered c w) (a : Nat × Act) : Covered c (w.step c a) := by
  obtain ⟨i, a⟩ := a
  unfold World.step
  dsimp only
  cases hp : w.procs[i]? with
  | none => exact h
  | some p =>
    dsimp only
    cases p with
    | done b => cases a <;> exact h.same hp
    | dead o => cases a <;> exact h.same hp
    | start =>
      cases a with
      | write k => exact h.same hp
      | crash => exact h.stay hp (by intro n e; cases e) (by intro e; cases e) (by intro n e; cases e)
      | next =>
        unfold stepProc
        dsimp only
        refine h.stay hp (by intro n e; cases e) (by intro e; cases e) ?_
        intro n e
        split at e <;> cases e
    | present =>
      cases a with
      | write k => exact h.same hp
      | crash => exact h.stay hp (by intro n e; cases e) (by intro e; cases e) (by intro n e; cases e)
      | next =>
        unfold stepProc
        dsimp only
        cases hf : w.file with
        | none =>
          have := h.same hp
          rw [hf] at this
          exact this
        | some b =>
          have := h.stay (p' := .done b) hp (by intro n e; cases e) (by intro e; cases e) (by intro n e; cases e)
          rw [hf] at this
          exact this
    | absent =>
      cases a with
      | write k => exact h.same hp
      | crash => exact h.stay hp (by intro n e; cases e) (by intro e; cases e) (by intro n e; cases e)
      | next =>
        unfold stepProc
        dsimp only
        refine ⟨?_, ?_, ?_⟩
        · intro f hf
          obtain rfl := Option.some.inj hf
          simp
        · intro f q _ _
          exact Or.inr (Or.inl ⟨0, Nat.zero_le _, mem_set_self hp⟩)
        · intro n hn
          rcases List.mem_or_eq_of_mem_set hn with hn | hn
          · exact ⟨(h.position n hn).1, rfl⟩
          · cases hn; exact ⟨Nat.zero_le _, rfl⟩
    | writing n =>
      cases a with
      | crash => exact h.stay hp (fun _ _ => Or.inr rfl) (by intro e; cases e) (by intro n e; cases e)
      | next =>
        unfold stepProc
        dsimp only
        by_cases hn : c.length ≤ n
        · rw [if_pos hn]
          refine h.stay hp ?_ (by intro e; cases e) (by intro n e; cases e)
          intro m e
          cases e
          exact Or.inl hn
        · rw [if_neg hn]
          exact h.same hp
      | write k =>
        unfold stepProc
        dsimp only
        have hpos := h.position n (List.mem_iff_getElem?.2 ⟨i, hp⟩)
        obtain ⟨f, hf⟩ := Option.isSome_iff_exists.1 hpos.2
        rw [hf, Option.getD_some]
        have hl := h.length f hf
        have hd : ((c.drop n).take k).length = min k (c.length - n) := by simp
        refine ⟨?_, ?_, ?_⟩
        · intro g hg
          obtain rfl := Option.some.inj hg
          rw [writeAt_length]
          omega
        · intro g q hg hq
          obtain rfl := Option.some.inj hg
          rw [writeAt_get]
          by_cases h1 : q < n
          · rw [if_pos h1]
            rcases h.bytes f q hf hq with e | ⟨m, hm, hmem⟩ | hdead
            · by_cases h2 : q < f.length
              · rw [if_pos h2]; exact Or.inl e
              · rw [List.getElem?_eq_none (by omega), List.getElem?_eq_getElem hq] at e
                cases e
            · refine Or.inr (Or.inl ⟨m, hm, mem_set_of_ne hp hmem ?_⟩)
              intro e
              cases e
              omega
            · exact Or.inr (Or.inr (mem_set_of_ne hp hdead (by intro e; cases e)))
          · rw [if_neg h1]
            by_cases h2 : q < n + ((c.drop n).take k).length
            · rw [if_pos h2]
              refine Or.inl ?_
              rw [List.getElem?_take_of_lt (by omega), List.getElem?_drop]
              congr 1
              omega
            · exact Or.inr (Or.inl ⟨_, Nat.not_lt.1 h2, mem_set_self hp⟩)
        · intro m hm
          rcases List.mem_or_eq_of_mem_set hm with hm | hm
          · exact ⟨(h.position m hm).1, rfl⟩
          · cases hm
            exact ⟨by omega, rfl⟩

theorem Covered.run {c : List UInt8} {w : World} (h : Covered c w) (sched : List (Nat × Act)) : Covered c (w.run c sched) := by
  unfold World.run
  induction sched generalizing w with
  | nil => exact h
  | cons a sched ih => exact ih (h.step a)

theorem Covered.fresh {c : List UInt8} {w : World} (hw : w.Fresh) (hf : w.file = none ∨ w.file = some c) : Covered c w := by
  refine ⟨?_, ?_, ?_⟩
  · rintro f e
    rcases hf with h | h <;> rw [h] at e
    · cases e
    · cases e; exact Nat.le_refl _
  · rintro f p e _
    rcases hf with h | h <;> rw [h] at e
    · cases e
    · cases e; exact Or.inl rfl
  · intro n hn
    cases hw _ hn

/-- C118 (for the moments at which nobody writes): however many processes fetch a document, with whatever steps in whatever order, and whoever is ended without a file open for writing: whenever
nobody is writing, the cached file is missing or whole. -/
theorem C118_quiet_partial {c : List UInt8} {w : World} (hw : w.Fresh) (hf : w.file = none ∨ w.file = some c) (sched : List (Nat × Act)) (hq : (w.run c sched).Quiet) :
    (w.run c sched).file = none ∨ (w.run c sched).file = some c := by
  have h := (Covered.fresh hw hf).run sched
  cases e : (w.run c sched).file with
  | none => exact Or.inl rfl
  | some f =>
    refine Or.inr (congrArg some (List.ext_getElem? (fun p => ?_)))
    by_cases hp : p < c.length
    · rcases h.bytes f p e hp with h | ⟨n, _, hn⟩ | hd
      · exact h
      · exact absurd rfl ((hq _ hn).1 n)
      · exact absurd rfl (hq _ hd).2
    · have := h.length f e
      rw [List.getElem?_eq_none (by omega), List.getElem?_eq_none (by omega)]

/-- A file that is there when everybody begins is what all read, and it stays. -/
theorem file_stays {c f : List UInt8} (sched : List (Nat × Act)) : ∀ (w : World), w.file = some f → (∀ p ∈ w.procs, p ∈ [Proc.start, .present, .done f, .dead false]) →
    (w.run c sched).file = some f ∧ ∀ p ∈ (w.run c sched).procs, p ∈ [Proc.start, .present, .done f, .dead false] := by
  induction sched with
  | nil => intro w h1 h2; exact ⟨h1, h2⟩
  | cons a sched ih =>
    intro w h1 h2
    unfold World.run
    rw [List.foldl_cons]
    have key : (w.step c a).file = some f ∧ ∀ p ∈ (w.step c a).procs, p ∈ [Proc.start, .present, .done f, .dead false] := by
      obtain ⟨i, a⟩ := a
      unfold World.step
      dsimp only
      cases hp : w.procs[i]? with
      | none => exact ⟨h1, h2⟩
      | some p =>
        have hm := h2 p (List.mem_iff_getElem?.2 ⟨i, hp⟩)
        have key : (stepProc c w.file p a).1 = some f ∧ (stepProc c w.file p a).2 ∈ [Proc.start, .present, .done f, .dead false] := by
          rw [h1]
          simp only [List.mem_cons, List.not_mem_nil, or_false] at hm
          rcases hm with rfl | rfl | rfl | rfl <;> cases a <;> simp [stepProc]
        refine ⟨key.1, fun q hq => ?_⟩
        rcases List.mem_or_eq_of_mem_set hq with hq | hq
        · exact h2 q hq
        · rw [hq]; exact key.2
    exact ih _ key.1 key.2

theorem file_read {c f : List UInt8} {w : World} (hw : w.Fresh) (hf : w.file = some f) (sched : List (Nat × Act)) :
    (w.run c sched).file = some f ∧ ∀ p ∈ (w.run c sched).procs, ∀ b, p = .done b → b = f := by
  obtain ⟨h1, h2⟩ := file_stays (c := c) sched w hf (fun p hp => by rw [hw p hp]; simp)
  refine ⟨h1, fun p hp b e => ?_⟩
  have := h2 p hp
  rw [e] at this
  simpa using this

/-- C118: with the file whole, every process that begins reads the whole content, and the file stays whole, whatever happens. -/
theorem C118_whole {c : List UInt8} {w : World} (hw : w.Fresh) (hf : w.file = some c) (sched : List (Nat × Act)) :
    (w.run c sched).file = some c ∧ ∀ p ∈ (w.run c sched).procs, ∀ b, p = .done b → b = c := file_read hw hf sched

/-- C118 (a process alone): it stores the whole content and reads it. -/
theorem C118_alone (c : List UInt8) : (World.mk none [.start]).run c (fetchAlone 0 c) = ⟨some c, [.done c]⟩ := by
  simp [World.run, World.step, fetchAlone, stepProc, writeAt]

/-- C118 is false in full when the process is ended: whatever the content and whatever part of it was written, every process that begins later reads that part only, and the file is never
completed, whatever happens. -/
theorem C118_interrupted_false (c : List UInt8) (n : Nat) :
    (World.mk none [.start]).run c [(0, .next), (0, .next), (0, .write n), (0, .crash)] = ⟨some (c.take n), [.dead true]⟩ ∧
      ∀ (w : World), w.Fresh → w.file = some (c.take n) → ∀ sched, (w.run c sched).file = some (c.take n) ∧ ∀ p ∈ (w.run c sched).procs, ∀ b, p = .done b → b = c.take n := by
  exact ⟨by simp [World.run, World.step, stepProc, writeAt], fun w hw hf sched => file_read hw hf sched⟩

/-- C118 is false in full for two processes, none of which is ended: for every content that is not empty, the second one may read an empty document, and the first one finishes all the same. -/
theorem C118_two_processes_false (c : List UInt8) (hc : c ≠ []) :
    (World.mk none [.start, .start]).run c [(0, .next), (0, .next), (1, .next), (1, .next), (0, .write c.length), (0, .next), (0, .next)] = ⟨some c, [.done c, .done []]⟩ ∧ [] ≠ c := by
  refine ⟨?_, Ne.symm hc⟩
  simp [World.run, World.step, stepProc, writeAt]

/-- C118: a third process may read a document of the right length with a wrong beginning, when two processes write. -/
theorem C118_three_processes_false (x : UInt8) (c : List UInt8) :
    (World.mk none [.start, .start, .start]).run (x :: c) [(0, .next), (1, .next), (0, .next), (0, .write 1), (1, .next), (0, .write c.length), (2, .next), (2, .next)] =
      ⟨some (0 :: c), [.writing (c.length + 1), .writing 0, .done (0 :: c)]⟩ := by
  simp [World.run, World.step, stepProc, writeAt, Nat.add_comm]

/-- Test: a schedule of three processes, one of which is ended before it writes, that ends in a quiet world. -/
example : ((World.mk none [.start, .start, .start]).run [1, 2, 3]
    [(0, .next), (1, .next), (2, .next), (2, .crash), (0, .next), (0, .write 2), (1, .next), (0, .write 1), (0, .next), (1, .write 3), (1, .next), (0, .next), (1, .next)]) = ⟨some [1, 2, 3], [.done [1, 2, 3], .done [1, 2, 3], .dead false]⟩ := by
  simp [World.run, World.step, stepProc, writeAt]

end Brel
