import json,re
x=json.load(open('/tmp/api.json'));exp=x['exp'];out=x['out']
def c(a):
    m=re.match(r'\{ (\w+)::(\w+) as (?:u8|usize) \}$',a)
    if m:
        t,v=m.groups()
        if t in('YuvSourceChannels','RdpChannels','Rgb30','Yuy2Description','YuvPacked444Format','YuvChromaSubsampling','Rgb30ByteOrder','YuvNVOrder'): return '.'+v.lower()
        if t=='YuvEndianness': return {'LittleEndian':'.little','BigEndian':'.big'}[v]
        if t=='YuvBytesPacking': return {'MostSignificantBytes':'.msb','LeastSignificantBytes':'.lsb'}[v]
        raise Exception(a)
    if a in('u8','u16'): return {'u8':'.u8','u16':'.u16'}[a]
    if a in('i16','i32'): return None
    assert a.isdigit(),a
    return a
K={('yuv_nv_p10_to_rgb','yuv_nv_p10_to_image_impl'):'nvP10ToRgb',
('yuv_nv_p16_to_rgb16','yuv_nv_p16_to_image_impl'):'nvP16ToRgb16',
('yuv_nv_to_rgba','yuv_nv12_to_rgbx'):'nvToRgb',
('rgba_to_nv','rgbx_to_nv'):'rgbToNv',
('yuv_to_rgba','yuv_to_rgbx'):'yuvToRgb',
('rgba_to_yuv','rgbx_to_yuv8'):'rgbToYuv',
('rgb16_to_yuv_p16','rgbx_to_yuv_ant'):'rgb16ToYuv16',
('yuv_to_rgba_alpha','yuv_with_alpha_to_rgbx'):'yuvAlphaToRgb',
('rgb_to_y','rgbx_to_y'):'rgbToY',('y_to_rgb','y_to_rgbx'):'yToRgb',
('yuv_p10_rgba','yuv_p16_to_image_ant'):'yuv16ToRgb',
('rgb_to_ycgco','rgbx_to_ycgco'):'rgbToYcgco',
('ycgco_to_rgb','ycgco_ro_rgbx'):'ycgcoToRgb',
('ycgco_to_rgb_alpha','ycgco_ro_rgbx_alpha'):'ycgcoAlphaToRgb',
('yuv_to_yuy2','yuv_to_yuy2_impl'):'yuvToYuy2',
('yuv_to_yuy2_p16','yuv_to_yuy2_impl'):'yuvToYuy2',
('yuy2_to_yuv','yuy2_to_yuv_impl'):'yuy2ToYuv',
('yuy2_to_yuv_p16','yuy2_to_yuv_impl'):'yuy2ToYuv16',
('to_identity','rgbx_to_gbr_impl'):'rgbToGbr',
('from_identity','gbr_to_rgbx_impl'):'gbrToRgb',
('from_identity_f16','gbr_to_rgbx_f16_impl'):'gbrToHalf',
('from_identity_alpha_f16','gbr_to_rgbx_alpha_f16_impl'):'gbrAlphaToHalf',
('from_identity_alpha','gbr_to_rgbx_alpha_impl'):'gbrAlphaToRgb',
('rgb_to_nv_p16','rgbx_to_yuv_bi_planar_10_impl'):'rgb16ToNv16',
('yuy2_to_rgb','yuy2_to_rgb_impl'):'yuy2ToRgb',
('yuy2_to_rgb_p16','yuy2_to_rgb_impl_p16'):'yuy2ToRgb16',
('sharp_rgba_to_yuv','rgbx_to_sharp_yuv'):'rgbToSharp',
('y_p16_to_rgb16','yuv400_p16_to_rgbx_impl'):'y16ToRgb16',
('y_p16_with_alpha_to_rgb16','yuv400_p16_with_alpha_to_rgbx'):'y16AlphaToRgb16',
('y_with_alpha_to_rgb','y_with_alpha_to_rgbx'):'yAlphaToRgb',
('yuv_p16_rgba_alpha','yuv_p16_to_image_alpha_ant'):'yuv16AlphaToRgb',
('yuv_p16_rgba16_alpha','yuv_p16_to_image_alpha_ant'):'yuv16AlphaToRgb16',
('yuv_p16_rgba_p16','yuv_p16_to_image_p16_ant'):'yuv16ToRgb16',
('yuva_p16_rgba_f16','yuv_p16_to_image_p16_ant'):'yuv16AlphaToHalf',
('yuv_p16_rgba_f16','yuv_p16_to_image_p16_ant'):'yuv16ToHalf',
('ar30_rgb','ar30_to_rgb8_impl'):'ar30ToRgb',
('f16_converter','convert_surface_to_f16'):'toHalf',
('f16_converter','convert_f16_surface_to_unsigned'):'fromHalf',
('rgb_ar30','rgb_to_ar30_impl'):'rgbToAr30',
('shuffle','shuffle_impl'):'shuffle',
('yuv_nv_p10_to_ar30','yuv_nv_p10_to_image_impl'):'nv16ToAr30',
('yuv_p16_ar30','yuv_p16_to_image_ar30'):'yuv16ToAr30',
('rdp','to_rdp_yuv'):'rgbToRdp',('rdp','rdp_yuv_to_rgb'):'rdpToRgb',
('ayuv_to_rgb','ayuv_to_rgb_launch'):'packed444ToRgb'}
def call(m,w,g,body):
    args=[c(a.strip()) for a in g.split(',') if a.strip()]
    args=[a for a in args if a is not None]
    if w.startswith('yuv400_p16'):
        d=re.search(r'dst_stride, (\d+), range',body).group(1); args.append(d)
    return '.'+K[(m,w)]+' '+' '.join(args)
rows={}
for mod,n in exp:
    if mod in('geometry','mirroring'): continue
    m,l0,l1,b=out[n]
    cs=[(w,g) for w,g in re.findall(r'(\w+)::<(.*?)>\s*[;(]',b) if w not in('RgbEncoder','RgbEncoder420')]
    if len(cs)==1: t='.call ('+call(m,*cs[0],b)+')'
    else:
        assert len(cs)==2
        a1=b.index('Rgb30ByteOrder::Host =>'); a2=b.index('Rgb30ByteOrder::Network =>'); assert a1<a2
        t='.byteOrder ('+call(m,*cs[0],b)+') ('+call(m,*cs[1],b)+')'
    path={'geometry':''}.get(m,m)
    import os
    f='/repo/src/%s.rs'%m
    if not os.path.exists(f):
        import glob
        r=[p for p in glob.glob('/repo/src/**/%s.rs'%m,recursive=True)]
        assert len(r)==1,(m,r); f=r[0]
    rows.setdefault(f,[]).append((n,t,l0,l1))
o=[]
o.append('''import Verif.Model.ApiCall

/-! The dispatch table: for every public conversion function, the worker it
calls and the compile-time constants it passes.  One list per source file;
each row cites the lines that define the function (for functions produced by a
macro: the lines of the macro invocation). -/

namespace Verif
''')
names=[]
for f in rows:
    nm='api_'+os.path.basename(f)[:-3]
    names.append(nm)
    o.append('/-- The public functions of %s. -/'%f)
    o.append('def %s : List ApiRow := ['%nm)
    for i,(n,t,l0,l1) in enumerate(rows[f]):
        o.append('  -- %s:%d-%d'%(f,l0,l1))
        o.append('  ⟨w!"%s", %s⟩%s'%(n,t,',' if i<len(rows[f])-1 else ']'))
    o.append('')
o.append('/-- The public conversion functions re-exported by /repo/src/lib.rs:144-557 (the\nrotation and mirroring functions, which take no layout, are in Model/Turn.lean). -/')
o.append('def apiFiles : List (List ApiRow) := [\n  '+',\n  '.join(names)+']\n')
o.append('def api : List ApiRow := apiFiles.flatten\n')
o.append('end Verif')
open('/verif/lean/Verif/Model/Api.lean','w').write('\n'.join(o)+'\n')
print(sum(len(v) for v in rows.values()),len(names))
