import Verif.Bbv.PropsMemory
import Verif.Bbv.VerboseTables
/-!
With enough memory the program is the one of `summarise` and `summariseV`.
-/
namespace Bbv

theorem heap_all {h : Heap} (hh : ∀ n, h.grants n = true) : { h with grants := fun _ => true } = h := by
  cases h with
  | mk g j =>
    have : g = fun _ => true := funext hh
    rw [this]

theorem addBlock_all (a : BitVec 64) (v : BitVec 32) (s : St) : addBlockM Luck.all a v s = .ok (addBlock a v s) := by
  unfold addBlockM addBlock
  split
  · rfl
  · rfl

theorem block_all (s : St) (r : Rec) : blockM Luck.all s r = .ok (block s r) := by
  unfold blockM block
  dsimp only
  split
  · rw [addBlock_all]
  · rfl

theorem record_all {e : Env} (he : ∀ n, e.heap.grants n = true) (s : St) (r : Rec) : recordM e Luck.all s r = record e s r := by
  unfold recordM record
  rw [block_all]
  dsimp only
  unfold tickM tick resetM reset
  rw [show { e.heap with grants := Luck.all.cols } = e.heap from heap_all he, show { e.heap with grants := Luck.all.rows } = e.heap from heap_all he]
  rfl

theorem records_all {e : Env} (he : ∀ n, e.heap.grants n = true) : ∀ (recs : List Rec) (s : St),
    recordsM true e s (recs.map fun r => (r, Luck.all)) = recordsV e s recs
  | [], _ => rfl
  | r :: l, s => by
    rw [List.map_cons]
    unfold recordsM recordsV
    rw [record_all he]
    cases record e s r with
    | error x => rfl
    | ok s' =>
      dsimp only
      rw [records_all he l s', if_pos rfl]

theorem records_plain {e : Env} (he : ∀ n, e.heap.grants n = true) : ∀ (recs : List Rec) (s : St),
    recordsM false e s (recs.map fun r => (r, Luck.all)) = ([], recs.foldlM (record e) s)
  | [], _ => rfl
  | r :: l, s => by
    rw [List.map_cons, List.foldlM_cons]
    unfold recordsM
    rw [record_all he]
    cases record e s r with
    | error x => rfl
    | ok s' =>
      dsimp only
      rw [records_plain he l s']
      rfl

theorem start_all {e : Env} (he : ∀ n, e.heap.grants n = true) (rows cols : BitVec 64) : startM e Lucks.all rows cols = start e rows cols := by
  unfold startM start
  rw [show { e.heap with grants := Lucks.all.startData } = e.heap from heap_all he]
  rfl

theorem reduced_all {h : Heap} (hh : ∀ n, h.grants n = true) (coin : Nat → Bool) (m : Matrix) (dims : BitVec 32) : reducedM h Lucks.all coin m dims = reduced h coin m dims := by
  unfold reducedM reduced projectionM projection
  rw [show { h with grants := Lucks.all.leftData } = h from heap_all hh, show { h with grants := Lucks.all.rightData } = h from heap_all hh]
  rfl

theorem onePam_all (period : BitVec 64) (points : List Row) (k : Nat) :
    onePamM true PamLuck.all period points k = ((onePamV period points k).1, (onePamV period points k).2.map (·.cost)) := by
  unfold onePamM onePamV
  rw [if_neg (by decide)]
  cases initialise points k with
  | none => rfl
  | some x =>
    cases x with
    | none => rfl
    | some p =>
      dsimp only
      rcases iterateV (p.cost.toNat + 1) p with ⟨costs, _ | _ | q⟩
      · rfl
      · rfl
      · dsimp only
        rw [if_neg (by decide)]
        cases weights q <;> rfl

theorem sweep_all (period : BitVec 64) (points : List Row) : ∀ n k, sweepM true (fun _ => PamLuck.all) period points n k = sweepV period points n k
  | 0, _ => rfl
  | n + 1, k => by
    unfold sweepM sweepV
    rw [onePam_all, sweep_all period points n (k + 1)]
    rcases onePamV period points k with ⟨t, _ | r⟩ <;> rfl

theorem clusterings_all (period : BitVec 64) (points : List Row) (k : BitVec 32) : clusteringsM true (fun _ => PamLuck.all) period points k = clusteringsV period points k := by
  unfold clusteringsM clusteringsV
  rw [sweep_all, onePam_all]
  rcases onePamV period points k.toNat with ⟨t, _ | r⟩ <;> rfl

/-- With memory and `-v`. -/
theorem C123_verbose {e : Env} (he : ∀ n, e.heap.grants n = true) (recs : List Rec) (coin : Nat → Bool) (dims k : BitVec 32) :
    unlimited true e recs coin dims k = summariseV e recs coin dims k := by
  unfold unlimited summariseM summariseV parseM parseV doPamM doPamV vectors
  rw [start_all he, show { e.heap with grants := Lucks.all.last } = e.heap from heap_all he]
  cases start e 1000 10000 with
  | error x => rfl
  | ok s =>
    dsimp only
    rw [records_all he]
    simp only [reduced_all he, if_true]
    rw [show Lucks.all.pam = fun _ => PamLuck.all from rfl]
    simp only [clusterings_all]
    rfl

theorem head_foot (r : Report) : head r.k ++ ([] ++ foot r) = r.text := by
  unfold head foot Report.text
  rw [List.nil_append, List.append_assoc, List.append_assoc]
  rfl

theorem onePam_plain (period : BitVec 64) (points : List Row) (k : Nat) :
    onePamM false PamLuck.all period points k = match onePam period points k with
      | .error x => (head k, .error x)
      | .ok r => (r.text, .ok r.cost) := by
  rw [← onePamV_snd]
  unfold onePamM onePamV
  rw [if_neg (by decide)]
  cases initialise points k with
  | none => rfl
  | some x =>
    cases x with
    | none => rfl
    | some p =>
      dsimp only
      rcases iterateV (p.cost.toNat + 1) p with ⟨costs, _ | _ | q⟩
      · exact Prod.ext (List.append_nil _) rfl
      · exact Prod.ext (List.append_nil _) rfl
      · dsimp only
        rw [if_neg (by decide)]
        cases weights q with
        | none => exact Prod.ext (List.append_nil _) rfl
        | some ws =>
          dsimp only
          rw [if_neg Bool.false_ne_true]
          have := head_foot { k := k, cost := q.cost, lines := ws.map (line period) }
          dsimp only at this
          rw [this]

theorem onePam_k {period : BitVec 64} {points : List Row} {k : Nat} {r : Report} (h : onePam period points k = .ok r) : r.k = k := by
  unfold onePam at h
  split at h
  · cases h
  · cases h
  · split at h
    · cases h
    · cases h
    · split at h
      · cases h
      · cases h; rfl

theorem onePam_error {period : BitVec 64} {points : List Row} {k : Nat} : onePam period points k ≠ .error .done := by
  intro h
  unfold onePam at h
  split at h
  · cases h
  · cases h
  · split at h
    · cases h
    · cases h
    · split at h <;> cases h

theorem sweep_plain (period : BitVec 64) (points : List Row) : ∀ n k, sweepM false (fun _ => PamLuck.all) period points n k =
    (if (sweep period points n k).2 = .done then text (sweep period points n k).1 else text (sweep period points n k).1 ++ head (k + (sweep period points n k).1.length),
      (sweep period points n k).2)
  | 0, _ => rfl
  | n + 1, k => by
    unfold sweepM
    rw [onePam_plain, sweep_plain period points n (k + 1)]
    cases h : onePam period points k with
    | error x =>
      have e : sweep period points (n + 1) k = ([], x) := by rw [sweep, h]
      rw [e]
      dsimp only
      rw [if_neg (fun hx => onePam_error (hx ▸ h))]
      rfl
    | ok r =>
      dsimp only
      by_cases hc : r.cost = 0
      · have e : sweep period points (n + 1) k = ([r], .done) := by rw [sweep, h]; exact if_pos hc
        rw [e, if_pos hc, if_pos rfl]
        exact Prod.ext (List.append_nil _).symm rfl
      · have e : sweep period points (n + 1) k = (r :: (sweep period points n (k + 1)).1, (sweep period points n (k + 1)).2) := by rw [sweep, h]; exact if_neg hc
        rw [e, if_neg hc]
        dsimp only
        have ht : text (r :: (sweep period points n (k + 1)).1) = r.text ++ text (sweep period points n (k + 1)).1 := by
          unfold text; rw [List.map_cons, List.flatten_cons]
        rw [ht, List.length_cons]
        by_cases hd : (sweep period points n (k + 1)).2 = .done
        · rw [if_pos hd, if_pos hd]
        · rw [if_neg hd, if_neg hd, List.append_assoc, show k + 1 + (sweep period points n (k + 1)).1.length = k + ((sweep period points n (k + 1)).1.length + 1) by omega]

/-- The text for the clusterings, with memory and without `-v`. -/
theorem clusterings_plain (period : BitVec 64) (points : List Row) (k : BitVec 32) : clusteringsM false (fun _ => PamLuck.all) period points k =
    (printed k (clusterings period points k), (clusterings period points k).2) := by
  unfold clusteringsM clusterings printed
  by_cases hk : k = 0
  · have hk' : ¬ k ≠ 0 := fun h => h hk
    rw [if_neg hk', if_neg hk', if_neg hk', sweep_plain]
    congr 1
  · rw [if_pos hk, if_pos hk, if_pos hk, onePam_plain]
    cases h : onePam period points k.toNat with
    | error x =>
      dsimp only
      rw [if_neg (fun hx => onePam_error (hx ▸ h))]
      have : BitVec.ofNat 64 k.toNat = k.setWidth 64 := by
        apply BitVec.eq_of_toNat_eq
        rw [BitVec.toNat_ofNat, BitVec.toNat_setWidth]
      rw [← this]
      rfl
    | ok r =>
      dsimp only
      rw [if_pos rfl]
      exact Prod.ext (List.append_nil _).symm rfl

/-- With memory and without `-v`: the ending is the same, and so is the text if the clusterings are reached. -/
theorem C123_plain {e : Env} (he : ∀ n, e.heap.grants n = true) (recs : List Rec) (coin : Nat → Bool) (dims k : BitVec 32) :
    (unlimited false e recs coin dims k).2 = (summarise e recs coin dims k).2 ∧
    ∀ s m b, parse e recs = .ok s → vectors e s = .ok m → reduced e.heap coin m dims = .ok b →
      (unlimited false e recs coin dims k).1 = printed k (summarise e recs coin dims k) := by
  have key : ∀ s, doPamM false e Lucks.all s coin dims k = (match vectors e s with
      | .error x => ([], x.ending)
      | .ok m => match reduced e.heap coin m dims with
        | .error x => ([], x.ending)
        | .ok b => (printed k (clusterings e.period (rowsOf b) k), (clusterings e.period (rowsOf b) k).2)) := by
    intro s
    unfold doPamM vectors
    rw [show { e.heap with grants := Lucks.all.last } = e.heap from heap_all he]
    simp only [reduced_all he]
    rw [show Lucks.all.pam = fun _ => PamLuck.all from rfl]
    simp only [clusterings_plain]
    rfl
  have key2 : parseM false e Lucks.all (recs.map fun r => (r, Luck.all)) = ([], parse e recs) := by
    unfold parseM parse
    rw [start_all he]
    cases start e 1000 10000 with
    | error x => rfl
    | ok s => exact records_plain he recs s
  unfold unlimited summariseM summarise doPam
  rw [key2]
  cases parse e recs with
  | error x => exact ⟨rfl, fun s m b h => by cases h⟩
  | ok s =>
    simp only [key, List.nil_append]
    refine ⟨?_, fun s' m b h1 h2 h3 => ?_⟩
    · cases vectors e s with
      | error x => rfl
      | ok m =>
        dsimp only
        cases reduced e.heap coin m dims <;> rfl
    · cases h1
      simp only [h2, h3]

end Bbv
