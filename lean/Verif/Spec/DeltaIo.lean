import Verif.Model.DeltaIo

/-!
# Specification vocabulary for delta files
-/

namespace Verif.Spec
open Verif.Np Verif.Model

variable {K : Type}

/-- The names for the same thing. -/
def idKeys : List String := ["MOCKID", "TARGETID", "THING_ID"]
def waveCols : List String := ["LAMBDA", "LOGLAM"]
def deltaCols : List String := ["DELTA", "DELTA_BLIND"]

/-- One of the names is there. -/
def HasAny (accepted names : List String) : Prop := ∃ k ∈ accepted, k ∈ names

/-- Not two of the names are there. -/
def HasNoTwo (accepted names : List String) : Prop :=
  ∀ k ∈ accepted, ∀ l ∈ accepted, k ∈ names → l ∈ names → k = l

/-- Columns are of the right kind: a matrix in RESOMAT, numbers elsewhere. -/
def ProperCols (h : Hdu K) : Prop :=
  ∀ k c, h.cols.lookup k = some c → ((∃ m, c = .mat m) ↔ k = "RESOMAT")

/-- What a table of deltas must have. -/
structure IsDelta (h : Hdu K) : Prop where
  id : HasAny idKeys h.header.keys
  snr : "MEANSNR" ∈ h.header.keys
  wave : HasAny waveCols h.cols.keys
  delta : HasAny deltaCols h.cols.keys
  ivar : "IVAR" ∈ h.cols.keys
  weight : "WEIGHT" ∈ h.cols.keys
  cont : "CONT" ∈ h.cols.keys

/-- Every quantity has one name only. -/
structure Unambiguous (h : Hdu K) : Prop where
  id : HasNoTwo idKeys h.header.keys
  wave : HasNoTwo waveCols h.cols.keys
  delta : HasNoTwo deltaCols h.cols.keys

end Verif.Spec
