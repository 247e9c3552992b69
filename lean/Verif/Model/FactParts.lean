import Verif.Model.FactRow

/-!
The accessors of facts for the parts of their contexts (`brel/brel_fact.py`, `brel/brel_context.py`).
-/

namespace Brel

/-- brel/brel_fact.py 174-182 (`get_unit`) and brel_context.py 143-149; `cast` does nothing. -/
def Fact.getUnit (f : Fact) : Option Characteristic := f.context.getCharacteristic .unit

/-- brel/brel_fact.py 184-193 (`get_period`) and brel_context.py 127-133 -/
def Fact.getPeriod (f : Fact) : Option Characteristic := f.context.getCharacteristic .period

/-- brel/brel_fact.py 195-204 (`get_entity`) and brel_context.py 135-141 -/
def Fact.getEntity (f : Fact) : Option Characteristic := f.context.getCharacteristic .entity

/-- brel/brel_context.py 185-189 (`__str__`) -/
def Context.text (ctx : Context) : String := ctx.aspects.foldl (fun output a => output ++ (ctx.plainText a ++ " ")) ""

end Brel
