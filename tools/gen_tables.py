#!/usr/bin/env python3
"""Generate Lean table modules from the text of /repo/obd (nothing is imported or run)."""
import re, sys
OUT = "/verif/lean/Verif/Model/"
def q(s):
    return '"' + s.replace("\\", "\\\\").replace('"', '\\"') + '"'

# ---- DTC table -------------------------------------------------------------
src = open("/repo/obd/codes.py", encoding="utf-8").read().split("\n")
ents = []
lns = []
i0 = src.index("DTC = {")
for n in range(i0 + 1, len(src)):
    if src[n].startswith("}"):
        end = n + 1
        break
    if src[n].strip() == "" or src[n].strip().startswith("#"):
        continue
    m = re.fullmatch(r'\s+"([A-Z0-9]{5})": "(.*)",', src[n])
    assert m, src[n]
    d = m.group(2)
    assert "\\" not in d and '"' not in d, d
    ents.append((m.group(1), d))
    lns.append(n + 1)
assert len(set(k for k, _ in ents)) == len(ents)
L = ["/-!", "# `DTC`, obd/codes.py:%d-%d" % (i0 + 1, end), "",
     "Generated by `tools/gen_tables.py` from the text of the source: %d entries, no" % len(ents),
     "duplicate keys, in source order, split into chunks of 100.", "-/", "namespace Model", ""]
names = []
for c in range(0, len(ents), 100):
    nm = "dtcChunk%02d" % (c // 100)
    names.append(nm)
    L.append("/-- Entries %d.. of `DTC`, obd/codes.py:%d-%d. -/" % (c, lns[c], lns[min(c + 100, len(ents)) - 1]))
    L.append("def %s : List (String × String) := [" % nm)
    L.append(",\n".join("  (%s, %s)" % (q(k), q(v)) for k, v in ents[c:c + 100]) + "]")
    L.append("")
L.append("/-- `DTC`, obd/codes.py:%d-%d. -/" % (i0 + 1, end))
L.append("def dtcTable : List (String × String) :=\n  " + " ++\n  ".join(names))
L.append("")
L.append("end Model")
open(OUT + "DtcTable.lean", "w").write("\n".join(L) + "\n")

# ---- command tables ----------------------------------------------------------
src = open("/repo/obd/commands.py", encoding="utf-8").read().split("\n")
DEC = {"pid": ".pid", "status": ".status", "single_dtc": ".singleDtc", "fuel_status": ".fuelStatus",
       "percent": ".percent", "temp": ".temp", "percent_centered": ".percentCentered",
       "fuel_pressure": ".fuelPressure", "pressure": ".pressure", "timing_advance": ".timingAdvance",
       "air_status": ".airStatus", "o2_sensors": ".o2Sensors", "sensor_voltage": ".sensorVoltage",
       "obd_compliance": ".obdCompliance", "o2_sensors_alt": ".o2SensorsAlt",
       "aux_input_status": ".auxInputStatus", "sensor_voltage_big": ".sensorVoltageBig",
       "evap_pressure": ".evapPressure", "current_centered": ".currentCentered",
       "absolute_load": ".absoluteLoad", "drop": ".drop", "max_maf": ".maxMaf",
       "fuel_type": ".fuelType", "abs_evap_pressure": ".absEvapPressure",
       "evap_pressure_alt": ".evapPressureAlt", "inject_timing": ".injectTiming",
       "fuel_rate": ".fuelRate", "dtc": ".dtc", "monitor": ".monitor", "count": ".count",
       "cvn": ".cvn", "raw_string": ".rawString", "elm_voltage": ".elmVoltage"}
ECU = {"ECU.ENGINE": "ECU.engine", "ECU.ALL": "ECU.all", "ECU.UNKNOWN": "ECU.unknown"}
def dec(s):
    m = re.fullmatch(r"uas\((0x[0-9A-F]{2})\)", s)
    if m: return "(.uas %s)" % m.group(1)
    m = re.fullmatch(r"encoded_string\((\d+)\)", s)
    if m: return "(.encodedString %s)" % m.group(1)
    return DEC[s]
rx = re.compile(r'^\s+OBDCommand\("([^"]*)"\s*,\s*"((?:[^"\\]|\\.)*)"\s*,\s*b"([^"]*)"\s*,\s*(\d+)\s*,\s*([a-z0-9_]+(?:\([0-9A-Fx]+\))?)\s*,\s*(ECU\.[A-Z]+)\s*,\s*(True|False)\s*\),')
cur = None
tabs = {}
span = {}
for n, line in enumerate(src):
    m = re.match(r"(__\w+__) = \[", line)
    if m and not line.rstrip().endswith("[]"):
        cur = m.group(1); tabs[cur] = []; span[cur] = [n + 1, None]
        continue
    if cur is None: continue
    if line.startswith("#"): continue
    m = rx.match(line)
    if m:
        name, desc, cmd, nb, de, ecu, fast = m.groups()
        desc = desc.replace('\\"', '"')
        tabs[cur].append("some (mkCmd %s %s %s %s %s %s %s)" % (
            q(name), q(desc), q(cmd), nb, dec(de), ECU[ecu], "true" if fast == "True" else "false"))
        continue
    m = re.match(r"\] \+ \(\[None\] \* (\d+)\) \+ \[", line)
    if m:
        tabs[cur].append("NONE%s" % m.group(1)); continue
    if line.startswith("]"):
        span[cur][1] = n + 1; cur = None; continue
    assert line.strip() == "" or line.strip().startswith("#"), line
assert set(tabs) == {"__mode1__", "__mode3__", "__mode4__", "__mode6__", "__mode7__", "__mode9__", "__misc__"}, set(tabs)
total = sum(1 for l in src if re.match(r'^\s+OBDCommand\(', l))
assert total == sum(1 for t in tabs.values() for x in t if x.startswith("some")), (total,)
L = ["import Verif.Model.Command", "/-!", "# The command tables of `obd/commands.py`", "",
     "Generated by `tools/gen_tables.py` from the text of the source.", "-/", "namespace Model", ""]
for k, lname in [("__mode1__", "mode1"), ("__mode3__", "mode3"), ("__mode4__", "mode4"),
                 ("__mode6__", "mode6"), ("__mode7__", "mode7"), ("__mode9__", "mode9"), ("__misc__", "misc")]:
    L.append("/-- `%s`, obd/commands.py:%d-%d. -/" % (k, span[k][0], span[k][1]))
    L.append("def %s : List (Option OBDCommand) :=" % lname)
    segs, seg = [], []
    for x in tabs[k]:
        if x.startswith("NONE"):
            if seg: segs.append("  [" + ",\n   ".join(seg) + "]")
            segs.append("  List.replicate %s none" % x[4:]); seg = []
        else: seg.append(x)
    if seg: segs.append("  [" + ",\n   ".join(seg) + "]")
    L.append(" ++\n".join(segs))
    L.append("")
L.append("end Model")
open(OUT + "CommandTable.lean", "w").write("\n".join(L) + "\n")

# ---- UAS table -----------------------------------------------------------
src = open("/repo/obd/UnitsAndScaling.py", encoding="utf-8").read().split("\n")
i0 = src.index("UAS_IDS = {")
out = []
rx = re.compile(r"\s+(0x[0-9A-F]{2}): UAS\((True|False), ([0-9.]+), (Unit\.[^,)]*?)(?:, offset=(-?[0-9.]+))?\),\s*(?:#.*)?$")
def num(s):
    if "." not in s: return "(.int %s)" % s
    neg = s.startswith("-"); t = s.lstrip("-")
    a, b = t.split(".")
    n = int(a + b)
    return "(.dec (%s%d / %d))" % ("-" if neg else "", n, 10 ** len(b))
def unit(u):
    return q(u.replace("Unit.", ""))
for n in range(i0 + 1, len(src)):
    if src[n].startswith("}"):
        end = n + 1; break
    t = src[n].strip()
    if t == "" or t.startswith("#"): continue
    if "lambda" in t:
        assert t == "0x2E: lambda _bytes: any([bool(x) for x in _bytes]),", t
        out.append("(0x2E, .anyBit)"); continue
    m = rx.match(src[n]); assert m, src[n]
    i, sg, sc, un, off = m.groups()
    out.append("(%s, .lin %s %s %s %s)" % (i, "true" if sg == "True" else "false", num(sc), unit(un), "0" if off is None else num(off)[len("(.dec "):-1]))
L = ["import Verif.Model.Uas", "/-!", "# `UAS_IDS`, obd/UnitsAndScaling.py:%d-%d" % (i0 + 1, end), "",
     "Generated by `tools/gen_tables.py` from the text of the source.  Entries are",
     "(id, `.lin signed scale unit offset`); a scale is a Python int or a decimal float literal.", "-/",
     "namespace Model", "",
     "/-- `UAS_IDS`, obd/UnitsAndScaling.py:%d-%d. -/" % (i0 + 1, end),
     "def uasTable : List (Nat × UasEntry) :=", "  [" + ",\n   ".join(out) + "]", "", "end Model"]
open(OUT + "UasTable.lean", "w").write("\n".join(L) + "\n")
print(len(ents), {k: len(v) for k, v in tabs.items()}, len(out))
