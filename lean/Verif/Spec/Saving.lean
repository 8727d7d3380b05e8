import Verif.Spec.Codec
/-!
# When saving stops

The objects that `ARXMLWriter.save` raises an exception for, class by class, and the exceptions.
-/
namespace Verif.Spec
open Verif Verif.Model

/-- Objects that can be saved satisfy these conditions (`Clean` asks for them in the whole document). -/
def stops : List (Key × Need) := [
  -- `literal_def.getValue()`: the class has no such method (`arxml_writer.py:9036`).  There must be no such object.
  (k!"HwAttributeLiteralDef", .oneOf []),
  -- `instance_ref.getContextPPortRef()` of `None` (`arxml_writer.py:3121`).
  (k!"ModeSwitchPoint", .oneOf [k!"modeGroupIRef"]),
  -- `notImplemented` (`arxml_writer.py:2277`): neither a constant nor coefficients.
  (k!"CompuScale", .strict (.oneOf [k!"compuScaleContents.compuConst.compuConstContentType.vt", k!"compuScaleContents.compuRationalCoeffs"])),
  -- `notImplemented`: the writer has no method for these classes here.
  (k!"ARPackage", .strict (.never k!"elements" k!"EcucValueCollection")),
  (k!"ArrayValueSpecification", .strict (.never k!"element" k!"ConstantReference")),
  (k!"RecordValueSpecification", .strict (.never k!"fields" k!"ConstantReference")),
  (k!"CompositeRuleBasedValueSpecification", .strict (.never k!"arguments" k!"ApplicationValueSpecification")),
  (k!"CompositeRuleBasedValueSpecification", .strict (.never k!"arguments" k!"ApplicationRuleBasedValueSpecification")),
  (k!"CompositeRuleBasedValueSpecification", .strict (.never k!"arguments" k!"NumericalValueSpecification")),
  (k!"CompositeRuleBasedValueSpecification", .strict (.never k!"arguments" k!"TextValueSpecification")),
  (k!"CompositeRuleBasedValueSpecification", .strict (.never k!"compoundPrimitiveArguments" k!"ApplicationValueSpecification")),
  (k!"CompositeRuleBasedValueSpecification", .strict (.never k!"compoundPrimitiveArguments" k!"NumericalValueSpecification")),
  (k!"CompositeRuleBasedValueSpecification", .strict (.never k!"compoundPrimitiveArguments" k!"TextValueSpecification"))]

def stopsOf (c : Key) : List Need := (stops.filter fun e => e.1 == c).map Prod.snd

/-- the exceptions `save` raises with warnings and, `strict`, without -/
def stopErrors (strict : Bool) : List PyErr := if strict then [.attributeError, .notImplemented] else [.attributeError]

end Verif.Spec
