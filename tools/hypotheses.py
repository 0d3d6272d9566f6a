"""Checks which of the theorems' hypotheses the demos in /repo/tests/files meet. Independent of the Lean model; the searched
texts are read from the source."""
import glob, os, re

SRC = '/repo/src/'

def needle(path, name):
    body = re.search(name + r'\b[^=]*=\s*\[(.*?)\]', open(SRC + path).read(), re.S).group(1)
    return bytes(int(x, 16) for x in re.findall(r'0x([0-9A-Fa-f]{2})', re.sub(r'//.*', '', body)))

def phrases(name):
    body = re.search(name + r'\b[^=]*=\s*\[(.*?)\];', open(SRC + 'qw/fragprint.rs').read(), re.S).group(1)
    return [a or b for a, b in re.findall(r'r#"(.*?)"#|"([^"]*)"', re.sub(r'//.*', '', body))]

SPAWN = needle('clientinfo.rs', 'CMD_SPAWN')
OVER = needle('duration.rs', 'NEEDLE_MATCH_OVER')
STANDBY = needle('duration.rs', 'NEEDLE_STANDBY')
DATE = needle('matchdate.rs', 'MATCHDATE_NEEDLE')
STOPPED = needle('aborted.rs', 'MATCH_STOPPED_PRINT')
END = needle('validate.rs', 'NEEDLE')
PAUSED = [needle('paused.rs', 'IS_PAUSED_NEEDLE'), needle('paused.rs', 'PAUSED_THE_GAME_NEEDLE')]
STATS, BOT = b'{"version": ', b'"bot": {'
assert STATS.decode() in open(SRC + 'ktxstats.rs').read()
assert any(BOT.decode() in open(p).read() for p in glob.glob(SRC + '*.rs'))
WORDS = [OVER, STANDBY, DATE, STATS, STOPPED, *PAUSED, BOT]
DEATH, WEAPON, TEAMKILL, ANONYMOUS, KILLER_FIRST, VICTIM_FIRST = (phrases(n) for n in (
    'X_DEATH', 'X_SUICIDE_BY_WEAPON', 'X_TEAMKILL_UNKNOWN', 'UNKNOWN_TEAMKILL_X', 'X_FRAG_Y', 'Y_FRAG_X'))
TWO = [(p.split('"??"') + [''])[:2] for p in KILLER_FIRST + VICTIM_FIRST]
ONE = DEATH + WEAPON + [' suicides'] + TEAMKILL + ANONYMOUS
FIRST, LAST = ONE + [a for a, _ in TWO], [b for _, b in TWO if b]
assert [len(x) for x in (DEATH, WEAPON, TEAMKILL, ANONYMOUS, TWO)] == [17, 11, 6, 6, 31]

def frames(data):
    """The whole frames of the data, and what is left."""
    out, i = [], 0
    while i + 2 <= len(data):
        kind, h = data[i + 1] % 8, i + 2
        if kind == 3:
            h += 4
        if kind in (1, 3, 4, 5, 6):
            if h + 4 > len(data):
                break
            size = int.from_bytes(data[h:h + 4], 'little')
            h += 4
        else:
            size = 8 if kind == 2 else 0
        if h + size > len(data):
            break
        out.append((i, data[i], data[i + 1], data[h:h + size]))
        i = h + size
    return out, data[i:]

def only_chat(body):
    i = 0
    while i < len(body):
        end = body.find(b'\0', i + 2)
        if body[i:i + 2] != b'\x08\x03' or end < 0:
            return False
        i = end + 1
    return i > 0

def crosses(w, x, y):
    return any(x.endswith(w[:k]) and y.startswith(w[k:]) for k in range(1, len(w)))

def chat_sent(data, fs, k):
    """ChatSent of Spec/Chat.lean for the frame with number k."""
    if k == 0 or k + 1 == len(fs):
        return False
    i, j = fs[k][0], fs[k + 1][0]
    a, f, b = data[max(0, i - 40):i], data[i:j], data[j:j + 40]
    return not any(w in f for w in WORDS) and \
        not any(crosses(w, x, y) for w in [END] + WORDS for x, y in ((a, f + b), (f, b), (a, b)))

def text(raw):
    """An approximation of the conversion of text: the names and phrases of the demos do not depend on the difference."""
    out = ''
    for b in raw:
        b &= 127
        out += '0123456789'[b - 18] if 18 <= b < 28 else '[' if b == 16 else ']' if b == 17 else \
            '#' if b < 32 and b not in (9, 10, 13) else chr(b)
    return out

def slots(data):
    """The userinfo strings, and whether they form a ClientSection of Spec/Info.lean."""
    o = data.find(SPAWN)
    sep, at, out = SPAWN, o + len(SPAWN), []
    while True:
        start = at - len(sep)
        key = data.find(b'\\name\\', start, start + 512)
        if key < 0:
            return out, start + 512 <= len(data) and at - o <= 24 * 512
        begin = data.rfind(b'\0', 0, key) + 1
        end = data.find(b'\0', begin)
        if begin <= start or not 7 <= end - begin <= 256:
            return out, False
        out.append(data[begin:end])
        sep, at = b'\0', end + 1

def inside(q, name):
    return any(name[i:].startswith(q) or q.startswith(name[i:]) for i in range(len(name)))

def first_name(x):
    return not any(inside(q, x) for q in FIRST)

def second_name(y):
    return not any(inside(q, y) for q in FIRST + LAST) and not any(y.startswith(q[1:]) for q in FIRST) and \
        not y.startswith(('died', 'cratered', 'suicides', 'stomps', 'squishes', 'his teammate', 'her teammate'))

def update(body):
    return [body[1]] if body[:1] == b'\x0e' and len(body) >= 4 else []

def told(fs, roster):
    """Told of Spec/Ambush.lean: the number of events, of anonymous teamkills charged and not charged, or None."""
    n = [0, 0, 0]
    for k, f in enumerate(fs):
        if f[3][:2] != b'\x08\x01' or (end := f[3].find(b'\0', 2)) <= 2:
            continue
        line = text(f[3][2:end]).rstrip()
        one = [q for q in ONE if line.endswith(q) and first_name(line[:-len(q)])]
        two = [1 for a, b in TWO for x, _, r in [line.partition(a)] if a in line and r.endswith(b) and
               first_name(x) and second_name(r[:len(r) - len(b)])]
        if len(one) + len(two) != 1:
            return None
        n[0] += 1
        if one and one[0] in ANONYMOUS:
            victim = line[:-len(one[0])]
            near = update(f[3][end + 1:]) + [u for g in [g for g in fs[k + 1:] if g[3]][:2] for u in update(g[3])]
            team = [t for name, t in roster if name == victim]
            mates = [roster[u][0] for u in near if u < len(roster) and [roster[u][1]] == team and roster[u][0] != victim]
            n[1 if mates else 2] += 1
    return n

def ping_sums(fs):
    """The largest sum over the first eight frames with pings."""
    sums, count = {}, 0
    for f in fs:
        body, some = f[3], False
        while body[:1] == b'\x24' and len(body) >= 5:
            if count < 8:
                sums[body[1]] = sums.get(body[1], 0) + body[2] + 256 * body[3]
            body, some = body[7:], True
        count += some
    return max(sums.values(), default=None)

def carries_stats(data):
    """CarriesStats of Spec/Server.lean."""
    at = data.rfind(STATS) - 8
    if at < 10:
        return None
    content = b''
    while True:
        size, kind, number = (int.from_bytes(data[at + i:at + j], 'little') for i, j in ((0, 4), (4, 6), (6, 8)))
        if kind != 3 or size < 2 or at + 6 + size > len(data):
            return False
        content += data[at + 8:at + 6 + size]
        at += 6 + size
        if number == 0:
            return content.decode(errors='ignore').encode() == content
        at += 10

def served(data, fs, rest):
    """Served of Spec/Server.lean: every part, with True where it is met."""
    strings, section = slots(data)
    infos = [dict(zip(*[iter(text(s).lstrip('\\').split('\\'))] * 2)) for s in strings]
    roster = [(i.get('name', ''), i.get('team', '')) for i in infos]
    head, tail = data[:1280].find(b'fullserverinfo "'), 0
    if head >= 0:
        tail = data[:1280].find(b'"', head + 16)
    date = data.find(DATE)
    line = data[date + len(DATE):data.find(b'\n', date)]
    end = data.rfind(OVER) if OVER in data else data.rfind(STANDBY) if STANDBY in data else len(data)
    sums = ping_sums(fs)
    return {
        'whole': rest == b'', 'size': 1280 <= len(data) < 2 ** 31, 'header': tail > head + 16 >= 16, 'slots': section,
        'few': len(strings) <= 256, 'names': len(set(n for n, _ in roster)) == len(roster), 'told': told(fs, roster),
        'pings': sums is not None and sums < 65536,
        'dated': date >= 0 and 22 <= len(line) <= 25 and line.isascii(), 'timed': date <= end}

cols = []
for path in sorted(glob.glob('/repo/tests/files/*.mvd')):
    data = open(path, 'rb').read()
    fs, rest = frames(data)
    spawn, over, date, stats = data.find(SPAWN), data.rfind(OVER), data.find(DATE), data.rfind(STATS)
    ends = [m.start() for m in re.finditer(b'(?=' + re.escape(END) + b')', data)]
    chat = [k for k, f in enumerate(fs) if only_chat(f[3])]
    sent = [k for k in chat if chat_sent(data, fs, k)]
    late = [k for k in sent if fs[k][0] >= spawn + 13056 and (stats < 0 or fs[k][0] < stats - 18)]
    anon = [k for k, f in enumerate(fs) if f[3][:2] == b'\x08\x01' and any(a.encode() in f[3] for a in ANONYMOUS)]
    searched = [k for k in chat if any(x < k and sum(f[3] != b'' for f in fs[x + 1:k]) < 2 for x in anon)]
    medium = [b for _, _, _, b in fs if b[:2] == b'\x08\x01']
    cols.append({
        'demo': os.path.basename(path)[:12], 'bytes': len(data), 'whole frames': len(fs), 'bytes left': len(rest),
        'frames without content': sum(not f[3] for f in fs), 'milliseconds': sum(f[1] for f in fs),
        '13056 bytes after spawn': 0 <= spawn <= len(data) - 13056,
        'date, before the end': 0 <= date < (over if over >= 0 else len(data)),
        'stats': 'none' if stats < 0 else stats >= 18,
        'marker nowhere but at the end (C96)': ends in ([], [len(data) - len(END)]),
        'frames that begin with an obituary': len(medium),
        'anonymous teamkills': len(anon),
        'chat where a killer is searched': len(searched),
        'frames with chat only': len(chat), 'of these to all': sum(fs[k][2] == 6 for k in chat),
        'as in C89': len(sent), 'as in C89, not header or stats': len(late),
        'as in C89, without time': sum(fs[k][1] == 0 for k in sent),
        'match stats as in C97': carries_stats(data), **{'C97 ' + k: v for k, v in served(data, fs, rest).items()}})
for key in cols[0]:
    print(key.ljust(36), *(str(c[key]).rjust(12) for c in cols))
