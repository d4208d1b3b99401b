import Verif.Props.Threads
import Verif.Props.RingsFind
import Verif.Model.Healpix

/-! # C67 for the classes that override `findTract`: `RingsSkyMap` and `HealpixSkyMap` -/

namespace Skymap.Threads
variable {K : Type} [Field K] [LinearOrder K] [FloorRing K] {b₀ : TractBuilder} {H : Bytes → Bytes} {message : PyM Bytes}
variable {s : MapState (SpherePoint K) K} {h : Option Bytes} {S : System (SharedMap (SpherePoint K) K) (Call (SpherePoint K) K) (Value (SpherePoint K) K)}
open CachingSkyMap (init)

/-- The call `skyMap.findTract(coord)` on a rings sky map (ringsSkyMap.py:244-260). -/
def ringsFindTract (A : FloatArith K) (R : Rings K) (coord : SpherePoint K) : Call (SpherePoint K) K := .findTractAt (R.findIndex A coord)

/-- The call `skyMap.findAllTracts(coord)` on a rings sky map (ringsSkyMap.py:310-359). -/
def ringsFindAllTracts (A : FloatArith K) (R : Rings K) (coord : SpherePoint K) : Call (SpherePoint K) K :=
  .findAllTracts ((R.nearIndices A coord).map fun l => l ++ [0, (R.numTracts.toNat : Int) - 1]) coord

/-- The call `skyMap.findTract(coord)` on a HEALPix sky map (healpixSkyMap.py:113-128). -/
def healpixFindTract (pi : K) (hp : HpGeom K) (n : Nat) (nest : Bool) (coord : SpherePoint K) : Call (SpherePoint K) K :=
  .findTractAt (.ok (hp.angleToPixel n nest (Skymap.coordToAng pi coord)))

/-- `Rings.findAllTracts` of a caching sky map. -/
theorem rings_all (A : FloatArith K) (R : Rings K) {m : CachingDef (SpherePoint K) K} (hm : m.numTracts = R.numTracts.toNat) (coord : SpherePoint K)
    (s : MapState (SpherePoint K) K) :
    R.findAllTracts A (CachingSkyMap.skyMapOps m) coord s =
      (PyS.lift ((R.nearIndices A coord).map fun l => l ++ [0, (R.numTracts.toNat : Int) - 1]) >>= fun l =>
        PyS.mapM (fun i : Int => CachingSkyMap.getItem m i >>= fun t =>
          (pure (if t.info.contains coord then [t] else []) : PyS (MapState (SpherePoint K) K) _)) l >>= fun ts => pure ts.flatten) s := by
  unfold Rings.findAllTracts Rings.keepContaining
  rw [← hm]
  cases R.nearIndices A coord <;> rfl

/-- C67 for rings sky maps (any configuration, version and arithmetic): every `findTract` and `findAllTracts` that has ended, under any
schedule of any number of threads, gave what it gives on a newly built sky map used by one thread - the same exception, or tracts with
the same contents; if all tracts had been accessed before, exactly what it gives with one thread, the identical objects included. -/
theorem C67_rings (A : FloatArith K) (R : Rings K) (env : FloatEnv K) (ops : SkyOps (SpherePoint K) K)
    (makeWcs : SpherePoint K → Wcs (SpherePoint K) K) {m : CachingDef (SpherePoint K) K} (hm : m = R.cachingDef A env ops makeWcs)
    (hb : b₀.state = none) (hs : (CachingSkyMap.skyMapOps m).After (init m b₀) s) (hh : DigestOk H message h)
    (hS : Reached m b₀ H message (.ofState s h) S) :
    (∀ c r, (ringsFindTract A R c, r) ∈ S.ended → r.map Value.plain =
      (R.findTract A (CachingSkyMap.skyMapOps m) c (init m b₀)).1.map fun t => (Value.tract t).plain) ∧
    (∀ c r, (ringsFindAllTracts A R c, r) ∈ S.ended → r.map Value.plain =
      (R.findAllTracts A (CachingSkyMap.skyMapOps m) c (init m b₀)).1.map fun l => (Value.tracts l).plain) ∧
    ((∀ i, (CachingSkyMap.getItem m i s).2 = s) →
      (∀ c r, (ringsFindTract A R c, r) ∈ S.ended → r = (R.findTract A (CachingSkyMap.skyMapOps m) c s).1.map .tract) ∧
      (∀ c r, (ringsFindAllTracts A R c, r) ∈ S.ended → r = (R.findAllTracts A (CachingSkyMap.skyMapOps m) c s).1.map .tracts)) := by
  have hn : m.numTracts = R.numTracts.toNat := by rw [hm]; rfl
  have hp := (reached_post hb hs hh hS).2
  refine ⟨fun c r hr => ?_, fun c r hr => ?_, fun hw => ⟨fun c r hr => ?_, fun c r hr => ?_⟩⟩
  · have : r.map Value.plain = Except.map _ (Except.bind _ _) := (hp _ hr).1
    rw [this, ← seq_findTractAt (R.findIndex A c) (SkyMapOps.After.refl _)]
    change _ = Except.map _ ((PyS.lift (R.findIndex A c) >>= fun i => CachingSkyMap.getItem m i) (init m b₀)).1
    cases ((PyS.lift (R.findIndex A c) >>= fun i => CachingSkyMap.getItem m i) (init m b₀)).1 <;> rfl
  · have : r.map Value.plain = Except.map _ (containing m b₀ _ c) := (hp _ hr).1
    rw [this, ← seq_findAllTracts _ c (SkyMapOps.After.refl _), rings_all A R hn c]
    cases (_ : PyM (List (TractRef (SpherePoint K) K)) × MapState (SpherePoint K) K).1 with
    | error e => rfl
    | ok l =>
      change Except.ok (Value.tracts ((l.map _).map _)) = Except.ok (Value.tracts (l.map _))
      rw [List.map_map]
      rfl
  · exact (warm_post hs hw hS).2 _ hr
  · have : r = Except.map _ _ := (warm_post hs hw hS).2 _ hr
    rw [this, rings_all A R hn c]

/-- The same for HEALPix sky maps, with any geometry of the HEALPix library. -/
theorem C67_healpix (pi : K) (hp : HpGeom K) (env : FloatEnv K) (ops : SkyOps (SpherePoint K) K)
    (makeWcs : SpherePoint K → Wcs (SpherePoint K) K) {c : HealpixConfig K} {n : Nat} {m : CachingDef (SpherePoint K) K}
    (_hm : HealpixSkyMap.cachingDef pi env ops hp makeWcs c = .ok m)
    (hb : b₀.state = none) (hs : (CachingSkyMap.skyMapOps m).After (init m b₀) s) (hh : DigestOk H message h)
    (hS : Reached m b₀ H message (.ofState s h) S) :
    (∀ p r, (healpixFindTract pi hp n c.nest p, r) ∈ S.ended → r.map Value.plain =
      (HealpixSkyMap.findTract pi hp n c.nest m p (init m b₀)).1.map fun t => (Value.tract t).plain) ∧
    ((∀ i, (CachingSkyMap.getItem m i s).2 = s) → ∀ p r, (healpixFindTract pi hp n c.nest p, r) ∈ S.ended →
      r = (HealpixSkyMap.findTract pi hp n c.nest m p s).1.map .tract) := by
  have hpost := (reached_post hb hs hh hS).2
  refine ⟨fun p r hr => ?_, fun hw p r hr => (warm_post hs hw hS).2 _ hr⟩
  have : r.map Value.plain = Except.map _ (Except.bind _ _) := (hpost _ hr).1
  rw [this, ← seq_findTractAt _ (SkyMapOps.After.refl _)]
  change _ = Except.map _ ((PyS.lift (.ok (hp.angleToPixel n c.nest (Skymap.coordToAng pi p))) >>=
    fun i => CachingSkyMap.getItem m i) (init m b₀)).1
  cases ((PyS.lift (.ok (hp.angleToPixel n c.nest (Skymap.coordToAng pi p))) >>= fun i => CachingSkyMap.getItem m i) (init m b₀)).1 <;> rfl

/-- C67: run by one thread alone these calls are the sequential methods. -/
theorem C67_rings_sequential (A : FloatArith K) (R : Rings K) (env : FloatEnv K) (ops : SkyOps (SpherePoint K) K)
    (makeWcs : SpherePoint K → Wcs (SpherePoint K) K) {m : CachingDef (SpherePoint K) K} (hm : m = R.cachingDef A env ops makeWcs)
    (hs : (CachingSkyMap.skyMapOps m).After (init m b₀) s) (c : SpherePoint K) :
    ((program m b₀ H message (ringsFindTract A R c)).run (.ofState s h) =
      ((R.findTract A (CachingSkyMap.skyMapOps m) c s).1.map .tract, .ofState (R.findTract A (CachingSkyMap.skyMapOps m) c s).2 h)) ∧
    ((program m b₀ H message (ringsFindAllTracts A R c)).run (.ofState s h) =
      ((R.findAllTracts A (CachingSkyMap.skyMapOps m) c s).1.map .tracts, .ofState (R.findAllTracts A (CachingSkyMap.skyMapOps m) c s).2 h)) := by
  have hn : m.numTracts = R.numTracts.toNat := by rw [hm]; rfl
  have fin : ∀ {α : Type} {p : Thread (SharedMap (SpherePoint K) K) α} {r : PyM α} {s₁ s₂ : SharedMap (SpherePoint K) K}
      (f : α → Value (SpherePoint K) K), p.run s₁ = (r, s₂) → (p.bind fun a => .done (.ok (f a))).run s₁ = (r.map f, s₂) := by
    intro α p r s₁ s₂ f hp
    rw [Thread.run_bind, hp]
    cases r <;> rfl
  have s1 : Sim m b₀ (findTractAt m b₀ (R.findIndex A c)) (R.findTract A (CachingSkyMap.skyMapOps m) c) :=
    (Sim.lift _).bind fun i => sim_getItem i
  have s2 : Sim m b₀ (findAllTracts m b₀ ((R.nearIndices A c).map fun l => l ++ [0, (R.numTracts.toNat : Int) - 1]) c)
      (R.findAllTracts A (CachingSkyMap.skyMapOps m) c) := by
    have e : R.findAllTracts A (CachingSkyMap.skyMapOps m) c = _ := funext fun s => rings_all A R hn c s
    rw [e]
    exact (Sim.lift _).bind fun l => (Sim.mapM (fun i : Int => (sim_getItem i).bind fun t => Sim.lift (.ok _)) l).bind fun ts => Sim.lift (.ok _)
  exact ⟨fin _ (s1 s h hs).1, fin _ (s2 s h hs).1⟩

/-- The hypotheses are met: two threads start `findTract` and `findAllTracts` for two positions on a new rings sky map and both calls end. -/
example (A : FloatArith K) (R : Rings K) (m : CachingDef (SpherePoint K) K) (p q : SpherePoint K) :
    ∃ S r r', Reached m b₀ H message (.ofState (init m b₀) none) S ∧ DigestOk H message none ∧ (ringsFindTract A R p, r) ∈ S.ended ∧
      (ringsFindAllTracts A R q, r') ∈ S.ended := by
  have h0 : Reached m b₀ H message (.ofState (init m b₀) none) _ := .next (.next .init (.start _ (ringsFindTract A R p) trivial))
    (.start _ (ringsFindAllTracts A R q) trivial)
  obtain ⟨S', h1, -, l, h2, h3⟩ := C67_no_deadlock h0
  have mem : ∀ c, c ∈ l.map Prod.fst → ∃ r, (c, r) ∈ S'.ended := by
    intro c hc
    obtain ⟨⟨c', r⟩, hx, rfl⟩ := List.mem_map.1 hc
    exact ⟨r, by rw [h2]; exact List.mem_append_right _ hx⟩
  obtain ⟨r, hr⟩ := mem (ringsFindTract A R p) (by rw [h3]; simp)
  obtain ⟨r', hr'⟩ := mem (ringsFindAllTracts A R q) (by rw [h3]; simp)
  exact ⟨S', r, r', h1, (fun d hd => nomatch hd), hr, hr'⟩

end Skymap.Threads
