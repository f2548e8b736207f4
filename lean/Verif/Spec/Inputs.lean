import Verif.Spec.Properties
import Verif.Spec.Parameters
import Verif.Spec.Epw
import Verif.Model.CommandLine

/-! # Specification: when two inputs say the same -/

namespace ISO.Spec.Inputs
open ISO ISO.User ISO.CommandLine

/-- the building file and the defaults file of a call exist, with these texts -/
def Texts (fs : FileSystem) (o : Options) (texts : List Str) : Prop :=
  fs.exists_ o.ism = true ∧
  match o.defaults with
  | none => ∃ b, fs.read o.ism = some b ∧ texts = [b]
  | some d => fs.exists_ d = true ∧ ∃ b t, fs.read o.ism = some b ∧ fs.read d = some t ∧ texts = [b, t]

/-- the first definition of every parameter of the program is the same -/
def SameDefinitions (ls ls' : List Str) : Prop := ∀ row ∈ Param.table, ∀ v, FirstDef ls row.name.toList v ↔ FirstDef ls' row.name.toList v

/-- the file, or its absence, is the same -/
def SameFile (fs fs' : FileSystem) (path : Str) : Prop := fs.exists_ path = fs'.exists_ path ∧ fs.read path = fs'.read path

/-- the weather file of the call is the same, wherever it is looked for -/
def SameWeather (fs fs' : FileSystem) (o : Options) (ls : List Str) : Prop :=
  ∀ path, FirstDef ls "weatherfilepath".toList path → SameFile fs fs' path ∧ SameFile fs fs' (resolveFilename o.ism path)

/-- no two lines define the same key -/
def NoRepeats (ls : List Str) : Prop := ls.Pairwise fun l l' => ∀ k v k' v', Defines l k v → Defines l' k' v' → ¬ SameKey k k'

/-- a comment, an empty line, or a definition of something that is not a parameter of the program -/
def Irrelevant (l : Str) : Prop := ∀ k v, Defines l k v → ∀ row ∈ Param.table, ¬ SameKey k row.name.toList

/-- two weather files with the same site and the same year of the five quantities that are used: dry bulb temperature, global horizontal,
direct normal and diffuse horizontal radiation, wind speed -/
structure SameYear (text text' : Str) : Prop where
  lines : ∃ ls ls' : List Str, text = Epw.file ls ∧ text' = Epw.file ls' ∧ (∀ l ∈ ls, '\n' ∉ l) ∧ (∀ l ∈ ls', '\n' ∉ l) ∧
    (∃ fs fs' : List Str, ls[0]? = some (Epw.line fs) ∧ ls'[0]? = some (Epw.line fs') ∧ fs ≠ [] ∧ fs' ≠ [] ∧ (∀ f ∈ fs, ',' ∉ f) ∧
      (∀ f ∈ fs', ',' ∉ f) ∧ ∀ k ∈ [7, 8, 9], Epw.field fs k = Epw.field fs' k) ∧
    ∀ r < 8760, ∃ fs fs' : List Str, ls[8 + r]? = some (Epw.line fs) ∧ ls'[8 + r]? = some (Epw.line fs') ∧ fs ≠ [] ∧ fs' ≠ [] ∧
      (∀ f ∈ fs, ',' ∉ f) ∧ (∀ f ∈ fs', ',' ∉ f) ∧ ∀ k ∈ [7, 14, 15, 16, 22], Epw.field fs k = Epw.field fs' k

/-- the two disks have the same files, and all but the changed weather files have the same content -/
structure SameDisk (fs fs' : FileSystem) : Prop where
  exists_ : fs.exists_ = fs'.exists_
  read : ∀ p, fs.read p = fs'.read p ∨ ∃ t t', fs.read p = some t ∧ fs'.read p = some t' ∧ SameYear t t'

end ISO.Spec.Inputs
