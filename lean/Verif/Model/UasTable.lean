import Verif.Model.Uas
/-!
# `UAS_IDS`, obd/UnitsAndScaling.py:70-174

Generated by `tools/gen_tables.py` from the text of the source.  Entries are
(id, `.lin signed scale unit offset`); a scale is a Python int or a decimal float literal.
-/
namespace Model

/-- `UAS_IDS`, obd/UnitsAndScaling.py:70-174. -/
def uasTable : List (Nat × UasEntry) :=
  [(0x01, .lin false (.int 1) "count" 0),
   (0x02, .lin false (.dec (1 / 10)) "count" 0),
   (0x03, .lin false (.dec (1 / 100)) "count" 0),
   (0x04, .lin false (.dec (1 / 1000)) "count" 0),
   (0x05, .lin false (.dec (305 / 10000000)) "count" 0),
   (0x06, .lin false (.dec (305 / 1000000)) "count" 0),
   (0x07, .lin false (.dec (25 / 100)) "rpm" 0),
   (0x08, .lin false (.dec (1 / 100)) "kph" 0),
   (0x09, .lin false (.int 1) "kph" 0),
   (0x0A, .lin false (.dec (122 / 1000)) "millivolt" 0),
   (0x0B, .lin false (.dec (1 / 1000)) "volt" 0),
   (0x0C, .lin false (.dec (1 / 100)) "volt" 0),
   (0x0D, .lin false (.dec (390625 / 100000000)) "milliampere" 0),
   (0x0E, .lin false (.dec (1 / 1000)) "ampere" 0),
   (0x0F, .lin false (.dec (1 / 100)) "ampere" 0),
   (0x10, .lin false (.int 1) "millisecond" 0),
   (0x11, .lin false (.int 100) "millisecond" 0),
   (0x12, .lin false (.int 1) "second" 0),
   (0x13, .lin false (.int 1) "milliohm" 0),
   (0x14, .lin false (.int 1) "ohm" 0),
   (0x15, .lin false (.int 1) "kiloohm" 0),
   (0x16, .lin false (.dec (1 / 10)) "celsius" (-400 / 10)),
   (0x17, .lin false (.dec (1 / 100)) "kilopascal" 0),
   (0x18, .lin false (.dec (117 / 10000)) "kilopascal" 0),
   (0x19, .lin false (.dec (79 / 1000)) "kilopascal" 0),
   (0x1A, .lin false (.int 1) "kilopascal" 0),
   (0x1B, .lin false (.int 10) "kilopascal" 0),
   (0x1C, .lin false (.dec (1 / 100)) "degree" 0),
   (0x1D, .lin false (.dec (5 / 10)) "degree" 0),
   (0x1E, .lin false (.dec (305 / 10000000)) "ratio" 0),
   (0x1F, .lin false (.dec (5 / 100)) "ratio" 0),
   (0x20, .lin false (.dec (390625 / 100000000)) "ratio" 0),
   (0x21, .lin false (.int 1) "millihertz" 0),
   (0x22, .lin false (.int 1) "hertz" 0),
   (0x23, .lin false (.int 1) "kilohertz" 0),
   (0x24, .lin false (.int 1) "count" 0),
   (0x25, .lin false (.int 1) "kilometer" 0),
   (0x26, .lin false (.dec (1 / 10)) "millivolt / millisecond" 0),
   (0x27, .lin false (.dec (1 / 100)) "grams_per_second" 0),
   (0x28, .lin false (.int 1) "grams_per_second" 0),
   (0x29, .lin false (.dec (25 / 100)) "pascal / second" 0),
   (0x2A, .lin false (.dec (1 / 1000)) "kilogram / hour" 0),
   (0x2B, .lin false (.int 1) "count" 0),
   (0x2C, .lin false (.dec (1 / 100)) "gram" 0),
   (0x2D, .lin false (.dec (1 / 100)) "milligram" 0),
   (0x2E, .anyBit),
   (0x2F, .lin false (.dec (1 / 100)) "percent" 0),
   (0x30, .lin false (.dec (1526 / 1000000)) "percent" 0),
   (0x31, .lin false (.dec (1 / 1000)) "liter" 0),
   (0x32, .lin false (.dec (305 / 10000000)) "inch" 0),
   (0x33, .lin false (.dec (24414 / 100000000)) "ratio" 0),
   (0x34, .lin false (.int 1) "minute" 0),
   (0x35, .lin false (.int 10) "millisecond" 0),
   (0x36, .lin false (.dec (1 / 100)) "gram" 0),
   (0x37, .lin false (.dec (1 / 10)) "gram" 0),
   (0x38, .lin false (.int 1) "gram" 0),
   (0x39, .lin false (.dec (1 / 100)) "percent" (-32768 / 100)),
   (0x3A, .lin false (.dec (1 / 1000)) "gram" 0),
   (0x3B, .lin false (.dec (1 / 10000)) "gram" 0),
   (0x3C, .lin false (.dec (1 / 10)) "microsecond" 0),
   (0x3D, .lin false (.dec (1 / 100)) "milliampere" 0),
   (0x3E, .lin false (.dec (6103516 / 100000000000)) "millimeter ** 2" 0),
   (0x3F, .lin false (.dec (1 / 100)) "liter" 0),
   (0x40, .lin false (.int 1) "ppm" 0),
   (0x41, .lin false (.dec (1 / 100)) "microampere" 0),
   (0x81, .lin true (.int 1) "count" 0),
   (0x82, .lin true (.dec (1 / 10)) "count" 0),
   (0x83, .lin true (.dec (1 / 100)) "count" 0),
   (0x84, .lin true (.dec (1 / 1000)) "count" 0),
   (0x85, .lin true (.dec (305 / 10000000)) "count" 0),
   (0x86, .lin true (.dec (305 / 1000000)) "count" 0),
   (0x87, .lin true (.int 1) "ppm" 0),
   (0x8A, .lin true (.dec (122 / 1000)) "millivolt" 0),
   (0x8B, .lin true (.dec (1 / 1000)) "volt" 0),
   (0x8C, .lin true (.dec (1 / 100)) "volt" 0),
   (0x8D, .lin true (.dec (390625 / 100000000)) "milliampere" 0),
   (0x8E, .lin true (.dec (1 / 1000)) "ampere" 0),
   (0x90, .lin true (.int 1) "millisecond" 0),
   (0x96, .lin true (.dec (1 / 10)) "celsius" 0),
   (0x99, .lin true (.dec (1 / 10)) "kilopascal" 0),
   (0x9C, .lin true (.dec (1 / 100)) "degree" 0),
   (0x9D, .lin true (.dec (5 / 10)) "degree" 0),
   (0xA8, .lin true (.int 1) "grams_per_second" 0),
   (0xA9, .lin true (.dec (25 / 100)) "pascal / second" 0),
   (0xAD, .lin true (.dec (1 / 100)) "milligram" 0),
   (0xAE, .lin true (.dec (1 / 10)) "milligram" 0),
   (0xAF, .lin true (.dec (1 / 100)) "percent" 0),
   (0xB0, .lin true (.dec (3052 / 1000000)) "percent" 0),
   (0xB1, .lin true (.int 2) "millivolt / second" 0),
   (0xFC, .lin true (.dec (1 / 100)) "kilopascal" 0),
   (0xFD, .lin true (.dec (1 / 1000)) "kilopascal" 0),
   (0xFE, .lin true (.dec (25 / 100)) "pascal" 0)]

end Model
