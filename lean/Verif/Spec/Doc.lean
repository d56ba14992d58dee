/-!
# The documented property identifiers and error codes

Written from the table "Properties" in /repo/README.md:203-240 (numbers, not the
names used in the source), from the list of pair functions in the same file and
from the meaning of the error codes.  Property theorems use these numbers so
that they do not depend on the constants of the model.
-/

namespace If97.Doc

abbrev idP : Int := 0
abbrev idT : Int := 1
abbrev idD : Int := 2
abbrev idV : Int := 3
abbrev idH : Int := 4
abbrev idS : Int := 5
abbrev idE : Int := 6
abbrev idU : Int := 7
abbrev idCp : Int := 8
abbrev idCv : Int := 9
abbrev idW : Int := 10
abbrev idKs : Int := 11
abbrev idF : Int := 12
abbrev idG : Int := 13
abbrev idZ : Int := 14
abbrev idX : Int := 15
abbrev idR : Int := 16
abbrev idEc : Int := 17
abbrev idKt : Int := 18
abbrev idDvdt : Int := 19
abbrev idDvdp : Int := 20
abbrev idDpdt : Int := 21
abbrev idIJtc : Int := 22
abbrev idJtc : Int := 23
abbrev idDv : Int := 24
abbrev idKv : Int := 25
abbrev idTc : Int := 26
abbrev idTd : Int := 27
abbrev idPr : Int := 28
abbrev idSt : Int := 29
abbrev idSdc : Int := 30
abbrev idPc : Int := 31
abbrev idBetap : Int := 32
abbrev idFi : Int := 33
abbrev idFu : Int := 34
abbrev idAlfap : Int := 35

/-- an identifier that is not in the documented table -/
def Unknown (o : Int) : Prop := o < 0 ∨ 35 < o

/-- general error -/
abbrev errValue : Int := -9999
/-- unknown output identifier -/
abbrev errOutId : Int := -1000
/-- pressure out of range -/
abbrev errP : Int := -2100
/-- temperature out of range -/
abbrev errT : Int := -2101
/-- entropy out of range -/
abbrev errS : Int := -2102
/-- "no region given" -/
abbrev noRegion : Int := 10

end If97.Doc
