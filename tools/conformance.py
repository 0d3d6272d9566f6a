"""Compares the model's results on the demo files of /repo/tests with those the unit tests in /repo/src expect.

The model works on lists and takes long when interpreted. So this makes a copy outside /verif, replaces in the copy
what is slow (Mathlib's floor and logarithm by core ones; lengths and suffixes of the whole file by a table) and
compiles it. Nothing here is part of the proofs.

    python3 tools/conformance.py [SCRATCH]
"""
import json, os, re, shutil, subprocess, sys

VERIF = os.path.dirname(os.path.dirname(os.path.abspath(__file__)))
REPO = "/repo"
SCRATCH = sys.argv[1] if len(sys.argv) > 1 else "/tmp/conformance"


def edit(path, *pairs):
    p = os.path.join(SCRATCH, "Verif", path)
    s = open(p).read()
    for a, b in pairs:
        assert a in s, (path, a)
        s = s.replace(a, b)
    open(p, "w").write(s)


def build():
    for d in ["Rust", "Model", "Spec"]:
        shutil.rmtree(f"{SCRATCH}/Verif/{d}", ignore_errors=True)
        shutil.copytree(f"{VERIF}/lean/Verif/{d}", f"{SCRATCH}/Verif/{d}")
    shutil.copy(f"{VERIF}/lean/Verif/Conformance.lean", f"{SCRATCH}/Verif/Conformance.lean")
    shutil.copy(f"{VERIF}/lean/lean-toolchain", f"{SCRATCH}/lean-toolchain") if os.path.exists(f"{VERIF}/lean/lean-toolchain") else None
    open(f"{SCRATCH}/lakefile.toml", "w").write(
        'name = "conformance"\ndefaultTargets = ["conf"]\n[[lean_lib]]\nname = "Verif"\n'
        '[[lean_exe]]\nname = "conf"\nroot = "Verif.Conformance"\n')
    edit("Rust/Float.lean",
         ("import Mathlib.Data.Int.Log\nimport Mathlib.Data.Rat.Floor\n", ""),
         ("namespace Mvd\n", '''namespace Mvd
notation "ℚ" => Rat
notation "ℤ" => Int
def ilogAux : Nat → Rat → Int → Int
  | 0, _, e => e
  | n + 1, x, e => if 2 ≤ x then ilogAux n (x / 2) (e + 1) else if x < 1 then ilogAux n (x * 2) (e - 1) else e
def ilog (x : Rat) : Int := ilogAux 300 x 0
def pow2 (e : Int) : Rat := if 0 ≤ e then ((2 ^ e.toNat : Nat) : Rat) else 1 / ((2 ^ (-e).toNat : Nat) : Rat)
'''),
         ("let f := ⌊x⌋", "let f := x.floor"),
         ("2 ^ (Int.log 2 x - 23)", "pow2 (ilog x - 23)"),
         ("min ⌊x⌋.toNat", "min x.floor.toNat"),
         ("(⌊x + 1 / 2⌋ : ℤ)", "((x + 1 / 2).floor : ℤ)"))
    p = f"{SCRATCH}/Verif/Rust/Res.lean"
    s = open(p).read()
    s = s.replace("namespace Mvd\n", '''initialize tailsRef : IO.Ref (Array (List UInt8)) ← IO.mkRef #[]
namespace Mvd
@[noinline] unsafe def getTails (u : Nat) : Array (List UInt8) := unsafeBaseIO (do
    if u = 123456789123 then
      tailsRef.set #[]
    tailsRef.get)
unsafe def fastDropImpl {α : Type} (l : List α) (n : Nat) : List α :=
  let t := getTails n
  if t.size > 0 && ptrAddrUnsafe (unsafeCast l : List UInt8) == ptrAddrUnsafe (t[0]!) then
    (if n < t.size then unsafeCast (t[n]!) else []) else l.drop n
@[implemented_by fastDropImpl] def fastDrop {α : Type} (l : List α) (n : Nat) : List α := l.drop n
unsafe def fastLenImpl {α : Type} (l : List α) (k : Nat) : Nat :=
  let t := getTails k
  if t.size > 0 && ptrAddrUnsafe (unsafeCast l : List UInt8) == ptrAddrUnsafe (t[0]!) then t.size - 1 else l.length
@[implemented_by fastLenImpl] def fastLen {α : Type} (l : List α) (_k : Nat) : Nat := l.length
''', 1)
    i, j = s.index("def slice "), s.index("def addU")
    s = s[:i] + s[i:j].replace("data.length", "(fastLen data 0)").replace("data.drop a", "fastDrop data a") + s[j:]
    open(p, "w").write(s)
    edit("Model/Frame.lean", ("data.length", "(fastLen data 0)"))
    edit("Model/Cursor.lean", ("if n ≤ c.rest.length then (some", "if n ≤ (c.rest.take n).length then (some"))
    edit("Rust/ParseFloat.lean",
         ("2 ^ (max (Int.log 2 x) (-1022) - 52)", "pow2 (max (ilog x) (-1022) - 52)"),
         ("m * 10 ^ (e - frac.length)", "m * (if frac.length ≤ e then ((10 ^ (e - frac.length).toNat : Nat) : Rat) else 1 / ((10 ^ (frac.length - e).toNat : Nat) : Rat))"))
    edit("Conformance.lean",
         ("    let data := (← IO.FS.readBinFile file).toList\n", '''    let bytes := (← IO.FS.readBinFile file)
    let mut data : List UInt8 := []
    let mut tails : Array (List UInt8) := #[[]]
    for i in [0:bytes.size] do
      data := bytes.get! (bytes.size - 1 - i) :: data
      tails := tails.push data
    tailsRef.set tails.reverse
'''))
    subprocess.run(["lake", "build", "conf"], cwd=SCRATCH, check=True)


MILTON = "1on1_milton_vs_mushi[tron]20240616-1719.mvd"
SF = "2on2_sf_vs_red[frobodm2]220104-0915.mvd"
POL = "4on4_-s-_vs_pol[dm2]20241118-2135.mvd"
EQU = "duel_equ_vs_kaboom[povdmm4]20240422-1038.mvd"
HOLY = "duel_holy_vs_dago[bravado]20240426-1659.mvd"
FFA = "ffa_5[dm4]20240501-1229.mvd"
WIPE = "wipeout_red_vs_blue[q3dm6qw]20240406-2028.mvd"
OEKS = "4on4_oeks_vs_tsq[dm2]20240426-1716.mvd"
CTF = "ctf_blue_vs_red[ctf5]20240520-1925.mvd"
JSON = "ctf_blue_vs_red[ctf5]20240520-1925.mvd.ktxstats.json"
RESULTS = {}


def raw_strings(file, demo):
    """The `r#"…"#` literals that follow the first mention of the demo in a source file, up to the next demo."""
    s = open(f"{REPO}/src/{file}").read()
    s = s[s.index("_string"):] if "_string" in s else s
    tests = s[s.index("mod tests"):]
    k = max(tests.find("test_clientinfo_strings"), tests.find("test_server_settings_string"))
    tests = tests[k:]
    part = tests[tests.index(demo) + len(demo):]
    part = part.split("tests/files/")[0]
    return re.findall(r'r#"(.*?)"#', part, re.S)


def literal(s):
    """The text of a Rust string literal."""
    s = re.sub(r"\\u\{([0-9a-f]+)\}", lambda m: chr(int(m.group(1), 16)), s)
    return s.replace('\\"', '"').replace("\\\\", "\\")


def player_literals(part):
    """`Player { … }` literals in the form the model's results are printed in."""
    out = []
    for b in re.findall(r"Player \{(.*?)\}(?=,|\s)", part, re.S):
        f = lambda k: re.search(rf"{k}: (.*?),?\n", b).group(1)
        c = re.findall(r"\d+", f("color"))
        name, team = (literal(re.match(r'"(.*)"\.to_string', f(k)).group(1)) for k in ("name", "team"))
        out.append(f"{name};{team};{c[0]},{c[1]};{f('frags')};{f('ping')};{f('is_bot')}")
    return out


def test_part(file, test, demo):
    """What follows a demo in a test, up to the next demo or test."""
    s = open(f"{REPO}/src/{file}").read()
    s = s[s.index(f"fn {test}()"):]
    s = s[s.index(demo) + len(demo):]
    return s.split("tests/files/")[0].split("#[test]")[0]


def team_literals(part):
    out = []
    for b in part.split(" Team {")[1:]:
        head, rest = b.split("players:", 1)
        f = lambda k: re.search(rf"{k}: (.*?),?\n", head).group(1)
        c = re.findall(r"\d+", f("color"))
        name = literal(re.match(r'"(.*)"\.to_string', f("name")).group(1))
        out.append(f"{name};{c[0]},{c[1]};{f('frags')};{f('ping')} = " + " + ".join(player_literals(rest)))
    return out


def same_players(a, b):
    """The comparison of players.rs:65-76: all but the pings are equal, and the pings differ by less than 5."""
    a, b = ([x.split(";") for x in v.split(" | ")] for v in (a, b))
    return len(a) == len(b) and all(x[:4] + x[5:] == y[:4] + y[5:] and abs(int(x[4]) - int(y[4])) < 5 for x, y in zip(a, b))


def wrapped(demo):
    """The match stats of a demo that is not in the repository, as a block of a demo with nothing else in it."""
    text = json.dumps(json.load(open(f"{REPO}/tests/files/{demo}.ktxstats.json")), ensure_ascii=False).encode()
    block = (len(text) + 2).to_bytes(4, "little") + (3).to_bytes(2, "little") + (0).to_bytes(2, "little") + text
    path = f"{SCRATCH}/{demo}"
    open(path, "wb").write(bytes([5, 6, 0, 0, 0, 0]) + (len(block)).to_bytes(4, "little") + block)
    return path


def secs(n):
    return lambda v: int(v) // 10**9 == n


def items(*xs):
    return lambda v: sorted(v.split(" | ")) == sorted(xs)


def is_(x):
    return lambda v: v == x


def strip(s):
    return "".join(s.split())


def expectations():
    E = []
    add = lambda where, demo, name, f: E.append((where, demo, name, f))
    for d in [SF, EQU, HOLY, FFA, WIPE]:
        add("filename.rs:22-75", d, "filename", is_(d))
        add("validate.rs:32-60", d, "is_valid", is_("true"))
    for d in [SF, FFA, HOLY, EQU, WIPE]:
        add("aborted.rs:22-45", d, "is_aborted", is_("true" if d in (SF, FFA) else "false"))
    for d in [SF, FFA, POL, HOLY, EQU, WIPE]:
        add("paused.rs:32-58", d, "is_paused", is_("true" if d == POL else "false"))
    add("validate.rs:70-75", SF, "has_end_of_demo_print", is_("true"))
    for d in [FFA, SF, EQU, HOLY]:
        add("clients.rs:131-150", d, "has_bot_players", is_("true" if d in (FFA, SF) else "false"))
        add("clients.rs:153-172", d, "has_human_players", is_("true"))
    for d in [EQU, HOLY]:
        add("serverinfo.rs:71-93", d, "serverinfo_string", is_(raw_strings("serverinfo.rs", d)[0]))
    for d in [SF, EQU, HOLY, FFA, WIPE]:
        add("clientinfo.rs:113-191", d, "clientinfo_strings", is_(" | ".join(raw_strings("clientinfo.rs", d))))
    add("clients.rs:88-128", EQU, "clients", is_(
        "0;eQu;red;4,4;false;false | 1;[ServeMe];lqwc;12,11;true;false | 2;KabÏÏm;;2,2;false;false"))
    add("clients.rs:229-238", EQU, "spectator_names", is_("[ServeMe]"))
    add("clients.rs:241-262", EQU, "player_names", items("eQu", "KabÏÏm"))
    add("clients.rs:241-262", SF, "player_names", items(": Sujoy", ": Timber", "> MrJustice", "Final"))
    add("clients.rs:265-291", SF, "team_names", items("=SF=", "red"))
    add("clients.rs:265-291", WIPE, "team_names", items("blue", "red"))
    for d, n in [(MILTON, 0), (FFA, 10), (EQU, 10), (HOLY, 10), (WIPE, 10)]:
        add("duration.rs:86-130", d, "countdown_duration", secs(n))
    add("duration.rs:86-130", MILTON, "countdown_duration", is_("0"))
    for d, n in [(MILTON, 174), (FFA, 71), (EQU, 190), (HOLY, 610), (WIPE, 231)]:
        add("duration.rs:132-175", d, "demo_duration", secs(n))
    for d, n in [(FFA, 61), (EQU, 180), (HOLY, 600), (WIPE, 221)]:
        add("duration.rs:177-212", d, "match_duration", secs(n))
    add("ping.rs:72-139", EQU, "ping_per_player_number", items("0:25", "1:620", "2:29"))
    add("ping.rs:72-139", WIPE, "ping_per_player_number", items("0:14", "1:52", "2:38", "3:12", "4:666", "5:25"))
    add("ping.rs:72-139", FFA, "ping_per_player_number",
        items("0:557", "1:12", "2:12", "3:10", "4:50", "5:10", "6:10", "7:10"))
    add("frags.rs:148-191", EQU, "frags_per_player_name", items("eQu:19", "KabÏÏm:20"))
    add("frags.rs:148-191", HOLY, "frags_per_player_name", items("HoLy:25", "äáçï:31"))
    add("frags.rs:148-191", FFA, "frags_per_player_name",
        items("test:4", "/ bro:6", "/ goldenboy:5", "/ tincan:8", "/ grue:6"))
    add("matchdate.rs:97-155", HOLY, "matchdate_string", is_("2024-04-26 16:59:29 CEST"))
    add("timestamp.rs:38-55", HOLY, "timestamp", is_("1714143569"))
    add("timestamp.rs:38-55", EQU, "timestamp", is_("1713782300"))
    add("ktxstats.rs:71-95", WIPE, "ktxstats_string", is_("error Mvd.Err.ktxstatsNotFound"))
    holy = strip(open(f"{REPO}/tests/files/{HOLY}.ktxstats.json").read())
    add("ktxstats.rs:71-95", HOLY, "ktxstats_string", lambda v: strip(v.replace("\\n", "\n")) == holy)
    add("players.rs:113-366", SF, "players_from_parsing", is_(
        ": Timber;red;4,4;13;10;true | : Sujoy;red;4,4;7;10;true | Final;=SF=;0,4;1;51;false | > MrJustice;=SF=;0,4;-5;10;true"))
    add("players.rs:113-366", EQU, "players_from_parsing", is_("KabÏÏm;;2,2;20;29;false | eQu;red;4,4;19;25;false"))
    add("players.rs:113-366", HOLY, "players_from_parsing", is_("äáçï;red;4,4;31;26;false | HoLy;x;4,4;25;25;false"))
    add("players.rs:113-366", FFA, "players_from_parsing", is_(
        "/ tincan;;10,11;8;10;true | / bro;;0,6;6;10;true | / grue;;3,4;6;10;true | "
        "/ goldenboy;;3,13;5;10;true | test;sdf;0,0;4;12;false"))
    for d in [EQU, CTF]:
        add("players.rs:368-520", d, "players", is_(" | ".join(player_literals(test_part("players.rs", "test_players_from_ktxstats", d)))))
    for d in [EQU, FFA]:
        E.append(("players.rs:62-107", d, "players", lambda v, d=d: same_players(v, RESULTS[d]["players_from_parsing"])))
    add("filename.rs:23-31", JSON, "filename", is_("error Mvd.Err.serverinfoNotFound"))
    add("teams.rs:28-134", OEKS, "teams", is_(" | ".join(team_literals(test_part("teams.rs", "test_teams", OEKS)))))
    add("server.rs:39-51", HOLY, "server", is_("QUAKE.SE KTX:28501;46.227.68.148:28501;46.227.68.148;28501"))
    add("server.rs:52-58", WIPE, "server", is_("error Mvd.Err.ktxstatsNotFound"))
    return E


def main():
    build()
    results = RESULTS
    for d in [MILTON, SF, POL, EQU, HOLY, FFA, WIPE, JSON]:
        out = subprocess.run([f"{SCRATCH}/.lake/build/bin/conf", f"{REPO}/tests/files/{d}"],
                             stdout=subprocess.PIPE, check=True).stdout.decode()
        results[d] = dict(line.split("\t", 1) for line in out.splitlines())
    for d in [OEKS, CTF]:
        out = subprocess.run([f"{SCRATCH}/.lake/build/bin/conf", wrapped(d)], stdout=subprocess.PIPE, check=True).stdout.decode()
        results[d] = dict(line.split("\t", 1) for line in out.splitlines())
    bad = 0
    E = expectations()
    for where, d, name, f in E:
        if not f(results[d][name]):
            bad += 1
            print("DIFFERS", where, d, name, results[d][name])
    print(f"{len(E)} expectations of the unit tests, {bad} not met by the model")
    sys.exit(bad > 0)


main()
