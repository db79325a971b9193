import Verif.Words.Basic

/-! Generated from /repo/wordlists.go, lines 16413-18462: each word is its UTF-8 bytes read as one
big-endian number (`0x61626c65` is "able"); the word is in the comment. -/

namespace Btc

set_option maxRecDepth 20000 in
/-- wordlists.go:16413-18462 `ChineseSimplifiedWordlist`, in order, packed. -/
def ChineseSimplifiedWordlistPacked : List Nat := [
  0xe79a84, -- 的
  0xe4b880, -- 一
  0xe698af, -- 是
  0xe59ca8, -- 在
  0xe4b88d, -- 不
  0xe4ba86, -- 了
  0xe69c89, -- 有
  0xe5928c, -- 和
  0xe4baba, -- 人
  0xe8bf99, -- 这
  0xe4b8ad, -- 中
  0xe5a4a7, -- 大
  0xe4b8ba, -- 为
  0xe4b88a, -- 上
  0xe4b8aa, -- 个
  0xe59bbd, -- 国
  0xe68891, -- 我
  0xe4bba5, -- 以
  0xe8a681, -- 要
  0xe4bb96, -- 他
  0xe697b6, -- 时
  0xe69da5, -- 来
  0xe794a8, -- 用
  0xe4bbac, -- 们
  0xe7949f, -- 生
  0xe588b0, -- 到
  0xe4bd9c, -- 作
  0xe59cb0, -- 地
  0xe4ba8e, -- 于
  0xe587ba, -- 出
  0xe5b0b1, -- 就
  0xe58886, -- 分
  0xe5afb9, -- 对
  0xe68890, -- 成
  0xe4bc9a, -- 会
  0xe58faf, -- 可
  0xe4b8bb, -- 主
  0xe58f91, -- 发
  0xe5b9b4, -- 年
  0xe58aa8, -- 动
  0xe5908c, -- 同
  0xe5b7a5, -- 工
  0xe4b99f, -- 也
  0xe883bd, -- 能
  0xe4b88b, -- 下
  0xe8bf87, -- 过
  0xe5ad90, -- 子
  0xe8afb4, -- 说
  0xe4baa7, -- 产
  0xe7a78d, -- 种
  0xe99da2, -- 面
  0xe8808c, -- 而
  0xe696b9, -- 方
  0xe5908e, -- 后
  0xe5a49a, -- 多
  0xe5ae9a, -- 定
  0xe8a18c, -- 行
  0xe5ada6, -- 学
  0xe6b395, -- 法
  0xe68980, -- 所
  0xe6b091, -- 民
  0xe5be97, -- 得
  0xe7bb8f, -- 经
  0xe58d81, -- 十
  0xe4b889, -- 三
  0xe4b98b, -- 之
  0xe8bf9b, -- 进
  0xe79d80, -- 着
  0xe7ad89, -- 等
  0xe983a8, -- 部
  0xe5baa6, -- 度
  0xe5aeb6, -- 家
  0xe794b5, -- 电
  0xe58a9b, -- 力
  0xe9878c, -- 里
  0xe5a682, -- 如
  0xe6b0b4, -- 水
  0xe58c96, -- 化
  0xe9ab98, -- 高
  0xe887aa, -- 自
  0xe4ba8c, -- 二
  0xe79086, -- 理
  0xe8b5b7, -- 起
  0xe5b08f, -- 小
  0xe789a9, -- 物
  0xe78eb0, -- 现
  0xe5ae9e, -- 实
  0xe58aa0, -- 加
  0xe9878f, -- 量
  0xe983bd, -- 都
  0xe4b8a4, -- 两
  0xe4bd93, -- 体
  0xe588b6, -- 制
  0xe69cba, -- 机
  0xe5bd93, -- 当
  0xe4bdbf, -- 使
  0xe782b9, -- 点
  0xe4bb8e, -- 从
  0xe4b89a, -- 业
  0xe69cac, -- 本
  0xe58ebb, -- 去
  0xe68a8a, -- 把
  0xe680a7, -- 性
  0xe5a5bd, -- 好
  0xe5ba94, -- 应
  0xe5bc80, -- 开
  0xe5ae83, -- 它
  0xe59088, -- 合
  0xe8bf98, -- 还
  0xe59ba0, -- 因
  0xe794b1, -- 由
  0xe585b6, -- 其
  0xe4ba9b, -- 些
  0xe784b6, -- 然
  0xe5898d, -- 前
  0xe5a496, -- 外
  0xe5a4a9, -- 天
  0xe694bf, -- 政
  0xe59b9b, -- 四
  0xe697a5, -- 日
  0xe982a3, -- 那
  0xe7a4be, -- 社
  0xe4b989, -- 义
  0xe4ba8b, -- 事
  0xe5b9b3, -- 平
  0xe5bda2, -- 形
  0xe79bb8, -- 相
  0xe585a8, -- 全
  0xe8a1a8, -- 表
  0xe997b4, -- 间
  0xe6a0b7, -- 样
  0xe4b88e, -- 与
  0xe585b3, -- 关
  0xe59084, -- 各
  0xe9878d, -- 重
  0xe696b0, -- 新
  0xe7babf, -- 线
  0xe58685, -- 内
  0xe695b0, -- 数
  0xe6ada3, -- 正
  0xe5bf83, -- 心
  0xe58f8d, -- 反
  0xe4bda0, -- 你
  0xe6988e, -- 明
  0xe79c8b, -- 看
  0xe58e9f, -- 原
  0xe58f88, -- 又
  0xe4b988, -- 么
  0xe588a9, -- 利
  0xe6af94, -- 比
  0xe68896, -- 或
  0xe4bd86, -- 但
  0xe8b4a8, -- 质
  0xe6b094, -- 气
  0xe7acac, -- 第
  0xe59091, -- 向
  0xe98193, -- 道
  0xe591bd, -- 命
  0xe6ada4, -- 此
  0xe58f98, -- 变
  0xe69da1, -- 条
  0xe58faa, -- 只
  0xe6b2a1, -- 没
  0xe7bb93, -- 结
  0xe8a7a3, -- 解
  0xe997ae, -- 问
  0xe6848f, -- 意
  0xe5bbba, -- 建
  0xe69c88, -- 月
  0xe585ac, -- 公
  0xe697a0, -- 无
  0xe7b3bb, -- 系
  0xe5869b, -- 军
  0xe5be88, -- 很
  0xe68385, -- 情
  0xe88085, -- 者
  0xe69c80, -- 最
  0xe7ab8b, -- 立
  0xe4bba3, -- 代
  0xe683b3, -- 想
  0xe5b7b2, -- 已
  0xe9809a, -- 通
  0xe5b9b6, -- 并
  0xe68f90, -- 提
  0xe79bb4, -- 直
  0xe9a298, -- 题
  0xe5859a, -- 党
  0xe7a88b, -- 程
  0xe5b195, -- 展
  0xe4ba94, -- 五
  0xe69e9c, -- 果
  0xe69699, -- 料
  0xe8b1a1, -- 象
  0xe59198, -- 员
  0xe99da9, -- 革
  0xe4bd8d, -- 位
  0xe585a5, -- 入
  0xe5b8b8, -- 常
  0xe69687, -- 文
  0xe680bb, -- 总
  0xe6aca1, -- 次
  0xe59381, -- 品
  0xe5bc8f, -- 式
  0xe6b4bb, -- 活
  0xe8aebe, -- 设
  0xe58f8a, -- 及
  0xe7aea1, -- 管
  0xe789b9, -- 特
  0xe4bbb6, -- 件
  0xe995bf, -- 长
  0xe6b182, -- 求
  0xe88081, -- 老
  0xe5a4b4, -- 头
  0xe59fba, -- 基
  0xe8b584, -- 资
  0xe8beb9, -- 边
  0xe6b581, -- 流
  0xe8b7af, -- 路
  0xe7baa7, -- 级
  0xe5b091, -- 少
  0xe59bbe, -- 图
  0xe5b1b1, -- 山
  0xe7bb9f, -- 统
  0xe68ea5, -- 接
  0xe79fa5, -- 知
  0xe8be83, -- 较
  0xe5b086, -- 将
  0xe7bb84, -- 组
  0xe8a781, -- 见
  0xe8aea1, -- 计
  0xe588ab, -- 别
  0xe5a5b9, -- 她
  0xe6898b, -- 手
  0xe8a792, -- 角
  0xe69c9f, -- 期
  0xe6a0b9, -- 根
  0xe8aeba, -- 论
  0xe8bf90, -- 运
  0xe5869c, -- 农
  0xe68c87, -- 指
  0xe587a0, -- 几
  0xe4b99d, -- 九
  0xe58cba, -- 区
  0xe5bcba, -- 强
  0xe694be, -- 放
  0xe586b3, -- 决
  0xe8a5bf, -- 西
  0xe8a2ab, -- 被
  0xe5b9b2, -- 干
  0xe5819a, -- 做
  0xe5bf85, -- 必
  0xe68898, -- 战
  0xe58588, -- 先
  0xe59b9e, -- 回
  0xe58899, -- 则
  0xe4bbbb, -- 任
  0xe58f96, -- 取
  0xe68dae, -- 据
  0xe5a484, -- 处
  0xe9989f, -- 队
  0xe58d97, -- 南
  0xe7bb99, -- 给
  0xe889b2, -- 色
  0xe58589, -- 光
  0xe997a8, -- 门
  0xe58db3, -- 即
  0xe4bf9d, -- 保
  0xe6b2bb, -- 治
  0xe58c97, -- 北
  0xe980a0, -- 造
  0xe799be, -- 百
  0xe8a784, -- 规
  0xe783ad, -- 热
  0xe9a286, -- 领
  0xe4b883, -- 七
  0xe6b5b7, -- 海
  0xe58fa3, -- 口
  0xe4b89c, -- 东
  0xe5afbc, -- 导
  0xe599a8, -- 器
  0xe58e8b, -- 压
  0xe5bf97, -- 志
  0xe4b896, -- 世
  0xe98791, -- 金
  0xe5a29e, -- 增
  0xe4ba89, -- 争
  0xe6b58e, -- 济
  0xe998b6, -- 阶
  0xe6b2b9, -- 油
  0xe6809d, -- 思
  0xe69caf, -- 术
  0xe69e81, -- 极
  0xe4baa4, -- 交
  0xe58f97, -- 受
  0xe88194, -- 联
  0xe4bb80, -- 什
  0xe8aea4, -- 认
  0xe585ad, -- 六
  0xe585b1, -- 共
  0xe69d83, -- 权
  0xe694b6, -- 收
  0xe8af81, -- 证
  0xe694b9, -- 改
  0xe6b885, -- 清
  0xe7be8e, -- 美
  0xe5868d, -- 再
  0xe98787, -- 采
  0xe8bdac, -- 转
  0xe69bb4, -- 更
  0xe58d95, -- 单
  0xe9a38e, -- 风
  0xe58887, -- 切
  0xe68993, -- 打
  0xe799bd, -- 白
  0xe69599, -- 教
  0xe9809f, -- 速
  0xe88ab1, -- 花
  0xe5b8a6, -- 带
  0xe5ae89, -- 安
  0xe59cba, -- 场
  0xe8baab, -- 身
  0xe8bda6, -- 车
  0xe4be8b, -- 例
  0xe79c9f, -- 真
  0xe58aa1, -- 务
  0xe585b7, -- 具
  0xe4b887, -- 万
  0xe6af8f, -- 每
  0xe79bae, -- 目
  0xe887b3, -- 至
  0xe8bebe, -- 达
  0xe8b5b0, -- 走
  0xe7a7af, -- 积
  0xe7a4ba, -- 示
  0xe8aeae, -- 议
  0xe5a3b0, -- 声
  0xe68aa5, -- 报
  0xe69697, -- 斗
  0xe5ae8c, -- 完
  0xe7b1bb, -- 类
  0xe585ab, -- 八
  0xe7a6bb, -- 离
  0xe58d8e, -- 华
  0xe5908d, -- 名
  0xe7a1ae, -- 确
  0xe6898d, -- 才
  0xe7a791, -- 科
  0xe5bca0, -- 张
  0xe4bfa1, -- 信
  0xe9a9ac, -- 马
  0xe88a82, -- 节
  0xe8af9d, -- 话
  0xe7b1b3, -- 米
  0xe695b4, -- 整
  0xe7a9ba, -- 空
  0xe58583, -- 元
  0xe586b5, -- 况
  0xe4bb8a, -- 今
  0xe99b86, -- 集
  0xe6b8a9, -- 温
  0xe4bca0, -- 传
  0xe59c9f, -- 土
  0xe8aeb8, -- 许
  0xe6ada5, -- 步
  0xe7bea4, -- 群
  0xe5b9bf, -- 广
  0xe79fb3, -- 石
  0xe8aeb0, -- 记
  0xe99c80, -- 需
  0xe6aeb5, -- 段
  0xe7a094, -- 研
  0xe7958c, -- 界
  0xe68b89, -- 拉
  0xe69e97, -- 林
  0xe5be8b, -- 律
  0xe58fab, -- 叫
  0xe4b894, -- 且
  0xe7a9b6, -- 究
  0xe8a782, -- 观
  0xe8b68a, -- 越
  0xe7bb87, -- 织
  0xe8a385, -- 装
  0xe5bdb1, -- 影
  0xe7ae97, -- 算
  0xe4bd8e, -- 低
  0xe68c81, -- 持
  0xe99fb3, -- 音
  0xe4bc97, -- 众
  0xe4b9a6, -- 书
  0xe5b883, -- 布
  0xe5a48d, -- 复
  0xe5aeb9, -- 容
  0xe584bf, -- 儿
  0xe9a1bb, -- 须
  0xe99985, -- 际
  0xe59586, -- 商
  0xe99d9e, -- 非
  0xe9aa8c, -- 验
  0xe8bf9e, -- 连
  0xe696ad, -- 断
  0xe6b7b1, -- 深
  0xe99abe, -- 难
  0xe8bf91, -- 近
  0xe79fbf, -- 矿
  0xe58d83, -- 千
  0xe591a8, -- 周
  0xe5a794, -- 委
  0xe7b4a0, -- 素
  0xe68a80, -- 技
  0xe5a487, -- 备
  0xe58d8a, -- 半
  0xe58a9e, -- 办
  0xe99d92, -- 青
  0xe79c81, -- 省
  0xe58897, -- 列
  0xe4b9a0, -- 习
  0xe5938d, -- 响
  0xe7baa6, -- 约
  0xe694af, -- 支
  0xe888ac, -- 般
  0xe58fb2, -- 史
  0xe6849f, -- 感
  0xe58ab3, -- 劳
  0xe4bebf, -- 便
  0xe59ba2, -- 团
  0xe5be80, -- 往
  0xe985b8, -- 酸
  0xe58e86, -- 历
  0xe5b882, -- 市
  0xe5858b, -- 克
  0xe4bd95, -- 何
  0xe999a4, -- 除
  0xe6b688, -- 消
  0xe69e84, -- 构
  0xe5ba9c, -- 府
  0xe7a7b0, -- 称
  0xe5a4aa, -- 太
  0xe58786, -- 准
  0xe7b2be, -- 精
  0xe580bc, -- 值
  0xe58fb7, -- 号
  0xe78e87, -- 率
  0xe6978f, -- 族
  0xe7bbb4, -- 维
  0xe58892, -- 划
  0xe98089, -- 选
  0xe6a087, -- 标
  0xe58699, -- 写
  0xe5ad98, -- 存
  0xe58099, -- 候
  0xe6af9b, -- 毛
  0xe4bab2, -- 亲
  0xe5bfab, -- 快
  0xe69588, -- 效
  0xe696af, -- 斯
  0xe999a2, -- 院
  0xe69fa5, -- 查
  0xe6b19f, -- 江
  0xe59e8b, -- 型
  0xe79cbc, -- 眼
  0xe78e8b, -- 王
  0xe68c89, -- 按
  0xe6a0bc, -- 格
  0xe585bb, -- 养
  0xe69893, -- 易
  0xe7bdae, -- 置
  0xe6b4be, -- 派
  0xe5b182, -- 层
  0xe78987, -- 片
  0xe5a78b, -- 始
  0xe58db4, -- 却
  0xe4b893, -- 专
  0xe78ab6, -- 状
  0xe882b2, -- 育
  0xe58e82, -- 厂
  0xe4baac, -- 京
  0xe8af86, -- 识
  0xe98082, -- 适
  0xe5b19e, -- 属
  0xe59c86, -- 圆
  0xe58c85, -- 包
  0xe781ab, -- 火
  0xe4bd8f, -- 住
  0xe8b083, -- 调
  0xe6bba1, -- 满
  0xe58ebf, -- 县
  0xe5b180, -- 局
  0xe785a7, -- 照
  0xe58f82, -- 参
  0xe7baa2, -- 红
  0xe7bb86, -- 细
  0xe5bc95, -- 引
  0xe590ac, -- 听
  0xe8afa5, -- 该
  0xe99381, -- 铁
  0xe4bbb7, -- 价
  0xe4b8a5, -- 严
  0xe9a696, -- 首
  0xe5ba95, -- 底
  0xe6b6b2, -- 液
  0xe5ae98, -- 官
  0xe5beb7, -- 德
  0xe99a8f, -- 随
  0xe79785, -- 病
  0xe88b8f, -- 苏
  0xe5a4b1, -- 失
  0xe5b094, -- 尔
  0xe6adbb, -- 死
  0xe8aeb2, -- 讲
  0xe9858d, -- 配
  0xe5a5b3, -- 女
  0xe9bb84, -- 黄
  0xe68ea8, -- 推
  0xe698be, -- 显
  0xe8b088, -- 谈
  0xe7bdaa, -- 罪
  0xe7a59e, -- 神
  0xe889ba, -- 艺
  0xe591a2, -- 呢
  0xe5b8ad, -- 席
  0xe590ab, -- 含
  0xe4bc81, -- 企
  0xe69c9b, -- 望
  0xe5af86, -- 密
  0xe689b9, -- 批
  0xe890a5, -- 营
  0xe9a1b9, -- 项
  0xe998b2, -- 防
  0xe4b8be, -- 举
  0xe79083, -- 球
  0xe88bb1, -- 英
  0xe6b0a7, -- 氧
  0xe58abf, -- 势
  0xe5918a, -- 告
  0xe69d8e, -- 李
  0xe58fb0, -- 台
  0xe890bd, -- 落
  0xe69ca8, -- 木
  0xe5b8ae, -- 帮
  0xe8bdae, -- 轮
  0xe7a0b4, -- 破
  0xe4ba9a, -- 亚
  0xe5b888, -- 师
  0xe59bb4, -- 围
  0xe6b3a8, -- 注
  0xe8bf9c, -- 远
  0xe5ad97, -- 字
  0xe69d90, -- 材
  0xe68e92, -- 排
  0xe4be9b, -- 供
  0xe6b2b3, -- 河
  0xe68081, -- 态
  0xe5b081, -- 封
  0xe58fa6, -- 另
  0xe696bd, -- 施
  0xe5878f, -- 减
  0xe6a091, -- 树
  0xe6bab6, -- 溶
  0xe6808e, -- 怎
  0xe6ada2, -- 止
  0xe6a188, -- 案
  0xe8a880, -- 言
  0xe5a3ab, -- 士
  0xe59d87, -- 均
  0xe6ada6, -- 武
  0xe59bba, -- 固
  0xe58fb6, -- 叶
  0xe9b1bc, -- 鱼
  0xe6b3a2, -- 波
  0xe8a786, -- 视
  0xe4bb85, -- 仅
  0xe8b4b9, -- 费
  0xe7b4a7, -- 紧
  0xe788b1, -- 爱
  0xe5b7a6, -- 左
  0xe7aba0, -- 章
  0xe697a9, -- 早
  0xe69c9d, -- 朝
  0xe5aeb3, -- 害
  0xe7bbad, -- 续
  0xe8bdbb, -- 轻
  0xe69c8d, -- 服
  0xe8af95, -- 试
  0xe9a39f, -- 食
  0xe58585, -- 充
  0xe585b5, -- 兵
  0xe6ba90, -- 源
  0xe588a4, -- 判
  0xe68aa4, -- 护
  0xe58fb8, -- 司
  0xe8b6b3, -- 足
  0xe69f90, -- 某
  0xe7bb83, -- 练
  0xe5b7ae, -- 差
  0xe887b4, -- 致
  0xe69dbf, -- 板
  0xe794b0, -- 田
  0xe9998d, -- 降
  0xe9bb91, -- 黑
  0xe78aaf, -- 犯
  0xe8b49f, -- 负
  0xe587bb, -- 击
  0xe88c83, -- 范
  0xe7bba7, -- 继
  0xe585b4, -- 兴
  0xe4bcbc, -- 似
  0xe4bd99, -- 余
  0xe59d9a, -- 坚
  0xe69bb2, -- 曲
  0xe8be93, -- 输
  0xe4bfae, -- 修
  0xe69585, -- 故
  0xe59f8e, -- 城
  0xe5a4ab, -- 夫
  0xe5a49f, -- 够
  0xe98081, -- 送
  0xe7ac94, -- 笔
  0xe888b9, -- 船
  0xe58da0, -- 占
  0xe58fb3, -- 右
  0xe8b4a2, -- 财
  0xe59083, -- 吃
  0xe5af8c, -- 富
  0xe698a5, -- 春
  0xe8818c, -- 职
  0xe8a789, -- 觉
  0xe6b189, -- 汉
  0xe794bb, -- 画
  0xe58a9f, -- 功
  0xe5b7b4, -- 巴
  0xe8b79f, -- 跟
  0xe899bd, -- 虽
  0xe69d82, -- 杂
  0xe9a39e, -- 飞
  0xe6a380, -- 检
  0xe590b8, -- 吸
  0xe58aa9, -- 助
  0xe58d87, -- 升
  0xe998b3, -- 阳
  0xe4ba92, -- 互
  0xe5889d, -- 初
  0xe5889b, -- 创
  0xe68a97, -- 抗
  0xe88083, -- 考
  0xe68a95, -- 投
  0xe59d8f, -- 坏
  0xe7ad96, -- 策
  0xe58fa4, -- 古
  0xe5be84, -- 径
  0xe68da2, -- 换
  0xe69caa, -- 未
  0xe8b791, -- 跑
  0xe79599, -- 留
  0xe992a2, -- 钢
  0xe69bbe, -- 曾
  0xe7abaf, -- 端
  0xe8b4a3, -- 责
  0xe7ab99, -- 站
  0xe7ae80, -- 简
  0xe8bfb0, -- 述
  0xe992b1, -- 钱
  0xe589af, -- 副
  0xe5b0bd, -- 尽
  0xe5b89d, -- 帝
  0xe5b084, -- 射
  0xe88d89, -- 草
  0xe586b2, -- 冲
  0xe689bf, -- 承
  0xe78bac, -- 独
  0xe4bba4, -- 令
  0xe99990, -- 限
  0xe998bf, -- 阿
  0xe5aea3, -- 宣
  0xe78eaf, -- 环
  0xe58f8c, -- 双
  0xe8afb7, -- 请
  0xe8b685, -- 超
  0xe5beae, -- 微
  0xe8aea9, -- 让
  0xe68ea7, -- 控
  0xe5b79e, -- 州
  0xe889af, -- 良
  0xe8bdb4, -- 轴
  0xe689be, -- 找
  0xe590a6, -- 否
  0xe7baaa, -- 纪
  0xe79b8a, -- 益
  0xe4be9d, -- 依
  0xe4bc98, -- 优
  0xe9a1b6, -- 顶
  0xe7a180, -- 础
  0xe8bdbd, -- 载
  0xe58092, -- 倒
  0xe688bf, -- 房
  0xe7aa81, -- 突
  0xe59d90, -- 坐
  0xe7b289, -- 粉
  0xe6958c, -- 敌
  0xe795a5, -- 略
  0xe5aea2, -- 客
  0xe8a281, -- 袁
  0xe586b7, -- 冷
  0xe8839c, -- 胜
  0xe7bb9d, -- 绝
  0xe69e90, -- 析
  0xe59d97, -- 块
  0xe58982, -- 剂
  0xe6b58b, -- 测
  0xe4b89d, -- 丝
  0xe58d8f, -- 协
  0xe8af89, -- 诉
  0xe5bfb5, -- 念
  0xe99988, -- 陈
  0xe4bb8d, -- 仍
  0xe7bd97, -- 罗
  0xe79b90, -- 盐
  0xe58f8b, -- 友
  0xe6b48b, -- 洋
  0xe99499, -- 错
  0xe88ba6, -- 苦
  0xe5a49c, -- 夜
  0xe58891, -- 刑
  0xe7a7bb, -- 移
  0xe9a291, -- 频
  0xe98090, -- 逐
  0xe99da0, -- 靠
  0xe6b7b7, -- 混
  0xe6af8d, -- 母
  0xe79fad, -- 短
  0xe79aae, -- 皮
  0xe7bb88, -- 终
  0xe8819a, -- 聚
  0xe6b1bd, -- 汽
  0xe69d91, -- 村
  0xe4ba91, -- 云
  0xe593aa, -- 哪
  0xe697a2, -- 既
  0xe8b79d, -- 距
  0xe58dab, -- 卫
  0xe5819c, -- 停
  0xe78388, -- 烈
  0xe5a4ae, -- 央
  0xe5af9f, -- 察
  0xe783a7, -- 烧
  0xe8bf85, -- 迅
  0xe5a283, -- 境
  0xe88ba5, -- 若
  0xe58db0, -- 印
  0xe6b4b2, -- 洲
  0xe588bb, -- 刻
  0xe68bac, -- 括
  0xe6bf80, -- 激
  0xe5ad94, -- 孔
  0xe6909e, -- 搞
  0xe7949a, -- 甚
  0xe5aea4, -- 室
  0xe5be85, -- 待
  0xe6a0b8, -- 核
  0xe6a0a1, -- 校
  0xe695a3, -- 散
  0xe4beb5, -- 侵
  0xe590a7, -- 吧
  0xe794b2, -- 甲
  0xe6b8b8, -- 游
  0xe4b985, -- 久
  0xe88f9c, -- 菜
  0xe591b3, -- 味
  0xe697a7, -- 旧
  0xe6a8a1, -- 模
  0xe6b996, -- 湖
  0xe8b4a7, -- 货
  0xe68d9f, -- 损
  0xe9a284, -- 预
  0xe998bb, -- 阻
  0xe6afab, -- 毫
  0xe699ae, -- 普
  0xe7a8b3, -- 稳
  0xe4b999, -- 乙
  0xe5a688, -- 妈
  0xe6a48d, -- 植
  0xe681af, -- 息
  0xe689a9, -- 扩
  0xe993b6, -- 银
  0xe8afad, -- 语
  0xe68ca5, -- 挥
  0xe98592, -- 酒
  0xe5ae88, -- 守
  0xe68bbf, -- 拿
  0xe5ba8f, -- 序
  0xe7bab8, -- 纸
  0xe58cbb, -- 医
  0xe7bcba, -- 缺
  0xe99ba8, -- 雨
  0xe59097, -- 吗
  0xe99288, -- 针
  0xe58898, -- 刘
  0xe5958a, -- 啊
  0xe680a5, -- 急
  0xe594b1, -- 唱
  0xe8afaf, -- 误
  0xe8aead, -- 训
  0xe684bf, -- 愿
  0xe5aea1, -- 审
  0xe99984, -- 附
  0xe88eb7, -- 获
  0xe88cb6, -- 茶
  0xe9b29c, -- 鲜
  0xe7b2ae, -- 粮
  0xe696a4, -- 斤
  0xe5ada9, -- 孩
  0xe884b1, -- 脱
  0xe7a1ab, -- 硫
  0xe882a5, -- 肥
  0xe59684, -- 善
  0xe9be99, -- 龙
  0xe6bc94, -- 演
  0xe788b6, -- 父
  0xe6b890, -- 渐
  0xe8a180, -- 血
  0xe6aca2, -- 欢
  0xe6a2b0, -- 械
  0xe68e8c, -- 掌
  0xe6ad8c, -- 歌
  0xe6b299, -- 沙
  0xe5889a, -- 刚
  0xe694bb, -- 攻
  0xe8b093, -- 谓
  0xe79bbe, -- 盾
  0xe8aea8, -- 讨
  0xe6999a, -- 晚
  0xe7b292, -- 粒
  0xe4b9b1, -- 乱
  0xe78783, -- 燃
  0xe79f9b, -- 矛
  0xe4b98e, -- 乎
  0xe69d80, -- 杀
  0xe88daf, -- 药
  0xe5ae81, -- 宁
  0xe9b281, -- 鲁
  0xe8b4b5, -- 贵
  0xe9929f, -- 钟
  0xe785a4, -- 煤
  0xe8afbb, -- 读
  0xe78fad, -- 班
  0xe4bcaf, -- 伯
  0xe9a699, -- 香
  0xe4bb8b, -- 介
  0xe8bfab, -- 迫
  0xe58fa5, -- 句
  0xe4b8b0, -- 丰
  0xe59fb9, -- 培
  0xe68fa1, -- 握
  0xe585b0, -- 兰
  0xe68b85, -- 担
  0xe5bca6, -- 弦
  0xe89b8b, -- 蛋
  0xe6b289, -- 沉
  0xe58187, -- 假
  0xe7a9bf, -- 穿
  0xe689a7, -- 执
  0xe7ad94, -- 答
  0xe4b990, -- 乐
  0xe8b081, -- 谁
  0xe9a1ba, -- 顺
  0xe7839f, -- 烟
  0xe7bca9, -- 缩
  0xe5be81, -- 征
  0xe884b8, -- 脸
  0xe5969c, -- 喜
  0xe69dbe, -- 松
  0xe8849a, -- 脚
  0xe59bb0, -- 困
  0xe5bc82, -- 异
  0xe5858d, -- 免
  0xe8838c, -- 背
  0xe6989f, -- 星
  0xe7a68f, -- 福
  0xe4b9b0, -- 买
  0xe69f93, -- 染
  0xe4ba95, -- 井
  0xe6a682, -- 概
  0xe685a2, -- 慢
  0xe68095, -- 怕
  0xe7a381, -- 磁
  0xe5808d, -- 倍
  0xe7a596, -- 祖
  0xe79a87, -- 皇
  0xe4bf83, -- 促
  0xe99d99, -- 静
  0xe8a1a5, -- 补
  0xe8af84, -- 评
  0xe7bfbb, -- 翻
  0xe88289, -- 肉
  0xe8b7b5, -- 践
  0xe5b0bc, -- 尼
  0xe8a1a3, -- 衣
  0xe5aebd, -- 宽
  0xe689ac, -- 扬
  0xe6a389, -- 棉
  0xe5b88c, -- 希
  0xe4bca4, -- 伤
  0xe6938d, -- 操
  0xe59e82, -- 垂
  0xe7a78b, -- 秋
  0xe5ae9c, -- 宜
  0xe6b0a2, -- 氢
  0xe5a597, -- 套
  0xe79da3, -- 督
  0xe68caf, -- 振
  0xe69eb6, -- 架
  0xe4baae, -- 亮
  0xe69cab, -- 末
  0xe5aeaa, -- 宪
  0xe5ba86, -- 庆
  0xe7bc96, -- 编
  0xe7899b, -- 牛
  0xe8a7a6, -- 触
  0xe698a0, -- 映
  0xe99bb7, -- 雷
  0xe99480, -- 销
  0xe8af97, -- 诗
  0xe5baa7, -- 座
  0xe5b185, -- 居
  0xe68a93, -- 抓
  0xe8a382, -- 裂
  0xe8839e, -- 胞
  0xe591bc, -- 呼
  0xe5a898, -- 娘
  0xe699af, -- 景
  0xe5a881, -- 威
  0xe7bbbf, -- 绿
  0xe699b6, -- 晶
  0xe58e9a, -- 厚
  0xe79b9f, -- 盟
  0xe8a1a1, -- 衡
  0xe9b8a1, -- 鸡
  0xe5ad99, -- 孙
  0xe5bbb6, -- 延
  0xe58db1, -- 危
  0xe883b6, -- 胶
  0xe5b18b, -- 屋
  0xe4b9a1, -- 乡
  0xe4b8b4, -- 临
  0xe99986, -- 陆
  0xe9a1be, -- 顾
  0xe68e89, -- 掉
  0xe59180, -- 呀
  0xe781af, -- 灯
  0xe5b281, -- 岁
  0xe68eaa, -- 措
  0xe69d9f, -- 束
  0xe88090, -- 耐
  0xe589a7, -- 剧
  0xe78e89, -- 玉
  0xe8b5b5, -- 赵
  0xe8b7b3, -- 跳
  0xe593a5, -- 哥
  0xe5ada3, -- 季
  0xe8afbe, -- 课
  0xe587af, -- 凯
  0xe883a1, -- 胡
  0xe9a29d, -- 额
  0xe6acbe, -- 款
  0xe7bb8d, -- 绍
  0xe58db7, -- 卷
  0xe9bd90, -- 齐
  0xe4bc9f, -- 伟
  0xe892b8, -- 蒸
  0xe6ae96, -- 殖
  0xe6b0b8, -- 永
  0xe5ae97, -- 宗
  0xe88b97, -- 苗
  0xe5b79d, -- 川
  0xe78289, -- 炉
  0xe5b2a9, -- 岩
  0xe5bcb1, -- 弱
  0xe99bb6, -- 零
  0xe69da8, -- 杨
  0xe5a58f, -- 奏
  0xe6b2bf, -- 沿
  0xe99cb2, -- 露
  0xe69d86, -- 杆
  0xe68ea2, -- 探
  0xe6bb91, -- 滑
  0xe99587, -- 镇
  0xe9a5ad, -- 饭
  0xe6b593, -- 浓
  0xe888aa, -- 航
  0xe68080, -- 怀
  0xe8b5b6, -- 赶
  0xe5ba93, -- 库
  0xe5a4ba, -- 夺
  0xe4bc8a, -- 伊
  0xe781b5, -- 灵
  0xe7a88e, -- 税
  0xe98094, -- 途
  0xe781ad, -- 灭
  0xe8b59b, -- 赛
  0xe5bd92, -- 归
  0xe58fac, -- 召
  0xe9bc93, -- 鼓
  0xe692ad, -- 播
  0xe79b98, -- 盘
  0xe8a381, -- 裁
  0xe999a9, -- 险
  0xe5bab7, -- 康
  0xe594af, -- 唯
  0xe5bd95, -- 录
  0xe88f8c, -- 菌
  0xe7baaf, -- 纯
  0xe5809f, -- 借
  0xe7b396, -- 糖
  0xe79b96, -- 盖
  0xe6a8aa, -- 横
  0xe7aca6, -- 符
  0xe7a781, -- 私
  0xe58aaa, -- 努
  0xe5a082, -- 堂
  0xe59f9f, -- 域
  0xe69eaa, -- 枪
  0xe6b6a6, -- 润
  0xe5b985, -- 幅
  0xe59388, -- 哈
  0xe7ab9f, -- 竟
  0xe7869f, -- 熟
  0xe899ab, -- 虫
  0xe6b3bd, -- 泽
  0xe88491, -- 脑
  0xe5a3a4, -- 壤
  0xe7a2b3, -- 碳
  0xe6aca7, -- 欧
  0xe9818d, -- 遍
  0xe4bea7, -- 侧
  0xe5afa8, -- 寨
  0xe695a2, -- 敢
  0xe5bdbb, -- 彻
  0xe89991, -- 虑
  0xe6969c, -- 斜
  0xe89684, -- 薄
  0xe5baad, -- 庭
  0xe7bab3, -- 纳
  0xe5bcb9, -- 弹
  0xe9a5b2, -- 饲
  0xe4bcb8, -- 伸
  0xe68a98, -- 折
  0xe9baa6, -- 麦
  0xe6b9bf, -- 湿
  0xe69a97, -- 暗
  0xe88db7, -- 荷
  0xe793a6, -- 瓦
  0xe5a19e, -- 塞
  0xe5ba8a, -- 床
  0xe7ad91, -- 筑
  0xe681b6, -- 恶
  0xe688b7, -- 户
  0xe8aebf, -- 访
  0xe5a194, -- 塔
  0xe5a587, -- 奇
  0xe9808f, -- 透
  0xe6a281, -- 梁
  0xe58880, -- 刀
  0xe6978b, -- 旋
  0xe8bfb9, -- 迹
  0xe58da1, -- 卡
  0xe6b0af, -- 氯
  0xe98187, -- 遇
  0xe4bbbd, -- 份
  0xe6af92, -- 毒
  0xe6b3a5, -- 泥
  0xe98080, -- 退
  0xe6b497, -- 洗
  0xe69186, -- 摆
  0xe781b0, -- 灰
  0xe5bda9, -- 彩
  0xe58d96, -- 卖
  0xe88097, -- 耗
  0xe5a48f, -- 夏
  0xe68ba9, -- 择
  0xe5bf99, -- 忙
  0xe9939c, -- 铜
  0xe78cae, -- 献
  0xe7a1ac, -- 硬
  0xe4ba88, -- 予
  0xe7b981, -- 繁
  0xe59c88, -- 圈
  0xe99baa, -- 雪
  0xe587bd, -- 函
  0xe4baa6, -- 亦
  0xe68abd, -- 抽
  0xe7af87, -- 篇
  0xe998b5, -- 阵
  0xe998b4, -- 阴
  0xe4b881, -- 丁
  0xe5b0ba, -- 尺
  0xe8bfbd, -- 追
  0xe5a086, -- 堆
  0xe99b84, -- 雄
  0xe8bf8e, -- 迎
  0xe6b39b, -- 泛
  0xe788b8, -- 爸
  0xe6a5bc, -- 楼
  0xe981bf, -- 避
  0xe8b08b, -- 谋
  0xe590a8, -- 吨
  0xe9878e, -- 野
  0xe78caa, -- 猪
  0xe69797, -- 旗
  0xe7b4af, -- 累
  0xe5818f, -- 偏
  0xe585b8, -- 典
  0xe9a686, -- 馆
  0xe7b4a2, -- 索
  0xe7a7a6, -- 秦
  0xe88482, -- 脂
  0xe6bdae, -- 潮
  0xe788b7, -- 爷
  0xe8b186, -- 豆
  0xe5bfbd, -- 忽
  0xe68998, -- 托
  0xe6838a, -- 惊
  0xe5a191, -- 塑
  0xe98197, -- 遗
  0xe68488, -- 愈
  0xe69cb1, -- 朱
  0xe69bbf, -- 替
  0xe7baa4, -- 纤
  0xe7b297, -- 粗
  0xe580be, -- 倾
  0xe5b09a, -- 尚
  0xe7979b, -- 痛
  0xe6a59a, -- 楚
  0xe8b0a2, -- 谢
  0xe5a58b, -- 奋
  0xe8b4ad, -- 购
  0xe7a3a8, -- 磨
  0xe5909b, -- 君
  0xe6b1a0, -- 池
  0xe69781, -- 旁
  0xe7a28e, -- 碎
  0xe9aaa8, -- 骨
  0xe79b91, -- 监
  0xe68d95, -- 捕
  0xe5bc9f, -- 弟
  0xe69ab4, -- 暴
  0xe589b2, -- 割
  0xe8b4af, -- 贯
  0xe6ae8a, -- 殊
  0xe9878a, -- 释
  0xe8af8d, -- 词
  0xe4baa1, -- 亡
  0xe5a381, -- 壁
  0xe9a1bf, -- 顿
  0xe5ae9d, -- 宝
  0xe58d88, -- 午
  0xe5b098, -- 尘
  0xe997bb, -- 闻
  0xe68fad, -- 揭
  0xe782ae, -- 炮
  0xe6ae8b, -- 残
  0xe586ac, -- 冬
  0xe6a1a5, -- 桥
  0xe5a687, -- 妇
  0xe8ada6, -- 警
  0xe7bbbc, -- 综
  0xe68b9b, -- 招
  0xe590b4, -- 吴
  0xe4bb98, -- 付
  0xe6b5ae, -- 浮
  0xe981ad, -- 遭
  0xe5be90, -- 徐
  0xe682a8, -- 您
  0xe69187, -- 摇
  0xe8b0b7, -- 谷
  0xe8b59e, -- 赞
  0xe7aeb1, -- 箱
  0xe99a94, -- 隔
  0xe8aea2, -- 订
  0xe794b7, -- 男
  0xe590b9, -- 吹
  0xe59bad, -- 园
  0xe7bab7, -- 纷
  0xe59490, -- 唐
  0xe8b4a5, -- 败
  0xe5ae8b, -- 宋
  0xe78ebb, -- 玻
  0xe5b7a8, -- 巨
  0xe88095, -- 耕
  0xe59da6, -- 坦
  0xe88da3, -- 荣
  0xe997ad, -- 闭
  0xe6b9be, -- 湾
  0xe994ae, -- 键
  0xe587a1, -- 凡
  0xe9a9bb, -- 驻
  0xe99485, -- 锅
  0xe69591, -- 救
  0xe681a9, -- 恩
  0xe589a5, -- 剥
  0xe5879d, -- 凝
  0xe7a2b1, -- 碱
  0xe9bdbf, -- 齿
  0xe688aa, -- 截
  0xe782bc, -- 炼
  0xe9babb, -- 麻
  0xe7baba, -- 纺
  0xe7a681, -- 禁
  0xe5ba9f, -- 废
  0xe79b9b, -- 盛
  0xe78988, -- 版
  0xe7bc93, -- 缓
  0xe58780, -- 净
  0xe79d9b, -- 睛
  0xe6988c, -- 昌
  0xe5a99a, -- 婚
  0xe6b689, -- 涉
  0xe7ad92, -- 筒
  0xe598b4, -- 嘴
  0xe68f92, -- 插
  0xe5b2b8, -- 岸
  0xe69c97, -- 朗
  0xe5ba84, -- 庄
  0xe8a197, -- 街
  0xe8978f, -- 藏
  0xe5a791, -- 姑
  0xe8b4b8, -- 贸
  0xe88590, -- 腐
  0xe5a5b4, -- 奴
  0xe595a6, -- 啦
  0xe683af, -- 惯
  0xe4b998, -- 乘
  0xe4bc99, -- 伙
  0xe681a2, -- 恢
  0xe58c80, -- 匀
  0xe7bab1, -- 纱
  0xe6898e, -- 扎
  0xe8bea9, -- 辩
  0xe880b3, -- 耳
  0xe5bdaa, -- 彪
  0xe887a3, -- 臣
  0xe4babf, -- 亿
  0xe79283, -- 璃
  0xe68ab5, -- 抵
  0xe88489, -- 脉
  0xe7a780, -- 秀
  0xe890a8, -- 萨
  0xe4bf84, -- 俄
  0xe7bd91, -- 网
  0xe8889e, -- 舞
  0xe5ba97, -- 店
  0xe596b7, -- 喷
  0xe7bab5, -- 纵
  0xe5afb8, -- 寸
  0xe6b197, -- 汗
  0xe68c82, -- 挂
  0xe6b4aa, -- 洪
  0xe8b4ba, -- 贺
  0xe997aa, -- 闪
  0xe69fac, -- 柬
  0xe78886, -- 爆
  0xe783af, -- 烯
  0xe6b4a5, -- 津
  0xe7a8bb, -- 稻
  0xe5a299, -- 墙
  0xe8bdaf, -- 软
  0xe58b87, -- 勇
  0xe5838f, -- 像
  0xe6bb9a, -- 滚
  0xe58e98, -- 厘
  0xe89299, -- 蒙
  0xe88ab3, -- 芳
  0xe882af, -- 肯
  0xe59da1, -- 坡
  0xe69fb1, -- 柱
  0xe88da1, -- 荡
  0xe885bf, -- 腿
  0xe4bbaa, -- 仪
  0xe69785, -- 旅
  0xe5b0be, -- 尾
  0xe8bda7, -- 轧
  0xe586b0, -- 冰
  0xe8b4a1, -- 贡
  0xe799bb, -- 登
  0xe9bb8e, -- 黎
  0xe5898a, -- 削
  0xe992bb, -- 钻
  0xe58b92, -- 勒
  0xe98083, -- 逃
  0xe99a9c, -- 障
  0xe6b0a8, -- 氨
  0xe983ad, -- 郭
  0xe5b3b0, -- 峰
  0xe5b881, -- 币
  0xe6b8af, -- 港
  0xe4bc8f, -- 伏
  0xe8bda8, -- 轨
  0xe4baa9, -- 亩
  0xe6af95, -- 毕
  0xe693a6, -- 擦
  0xe88eab, -- 莫
  0xe588ba, -- 刺
  0xe6b5aa, -- 浪
  0xe7a798, -- 秘
  0xe68fb4, -- 援
  0xe6a0aa, -- 株
  0xe581a5, -- 健
  0xe594ae, -- 售
  0xe882a1, -- 股
  0xe5b29b, -- 岛
  0xe79498, -- 甘
  0xe6b3a1, -- 泡
  0xe79da1, -- 睡
  0xe7aba5, -- 童
  0xe993b8, -- 铸
  0xe6b1a4, -- 汤
  0xe99880, -- 阀
  0xe4bc91, -- 休
  0xe6b187, -- 汇
  0xe8888d, -- 舍
  0xe789a7, -- 牧
  0xe7bb95, -- 绕
  0xe782b8, -- 炸
  0xe593b2, -- 哲
  0xe7a3b7, -- 磷
  0xe7bba9, -- 绩
  0xe69c8b, -- 朋
  0xe6b7a1, -- 淡
  0xe5b096, -- 尖
  0xe590af, -- 启
  0xe999b7, -- 陷
  0xe69fb4, -- 柴
  0xe59188, -- 呈
  0xe5be92, -- 徒
  0xe9a29c, -- 颜
  0xe6b3aa, -- 泪
  0xe7a88d, -- 稍
  0xe5bf98, -- 忘
  0xe6b3b5, -- 泵
  0xe8939d, -- 蓝
  0xe68b96, -- 拖
  0xe6b49e, -- 洞
  0xe68e88, -- 授
  0xe9959c, -- 镜
  0xe8be9b, -- 辛
  0xe5a3ae, -- 壮
  0xe9948b, -- 锋
  0xe8b4ab, -- 贫
  0xe8999a, -- 虚
  0xe5bcaf, -- 弯
  0xe691a9, -- 摩
  0xe6b3b0, -- 泰
  0xe5b9bc, -- 幼
  0xe5bbb7, -- 廷
  0xe5b08a, -- 尊
  0xe7aa97, -- 窗
  0xe7bab2, -- 纲
  0xe5bc84, -- 弄
  0xe99ab6, -- 隶
  0xe79691, -- 疑
  0xe6b08f, -- 氏
  0xe5aeab, -- 宫
  0xe5a790, -- 姐
  0xe99c87, -- 震
  0xe7919e, -- 瑞
  0xe680aa, -- 怪
  0xe5b0a4, -- 尤
  0xe790b4, -- 琴
  0xe5beaa, -- 循
  0xe68f8f, -- 描
  0xe8869c, -- 膜
  0xe8bf9d, -- 违
  0xe5a4b9, -- 夹
  0xe885b0, -- 腰
  0xe7bc98, -- 缘
  0xe78fa0, -- 珠
  0xe7a9b7, -- 穷
  0xe6a3ae, -- 森
  0xe69e9d, -- 枝
  0xe7abb9, -- 竹
  0xe6b29f, -- 沟
  0xe582ac, -- 催
  0xe7bbb3, -- 绳
  0xe5bf86, -- 忆
  0xe982a6, -- 邦
  0xe589a9, -- 剩
  0xe5b9b8, -- 幸
  0xe6b586, -- 浆
  0xe6a08f, -- 栏
  0xe68ba5, -- 拥
  0xe78999, -- 牙
  0xe8b4ae, -- 贮
  0xe7a4bc, -- 礼
  0xe6bba4, -- 滤
  0xe992a0, -- 钠
  0xe7bab9, -- 纹
  0xe7bda2, -- 罢
  0xe68b8d, -- 拍
  0xe592b1, -- 咱
  0xe5968a, -- 喊
  0xe8a296, -- 袖
  0xe59f83, -- 埃
  0xe58ba4, -- 勤
  0xe7bd9a, -- 罚
  0xe784a6, -- 焦
  0xe6bd9c, -- 潜
  0xe4bc8d, -- 伍
  0xe5a2a8, -- 墨
  0xe6acb2, -- 欲
  0xe7bc9d, -- 缝
  0xe5a793, -- 姓
  0xe5888a, -- 刊
  0xe9a5b1, -- 饱
  0xe4bbbf, -- 仿
  0xe5a596, -- 奖
  0xe9939d, -- 铝
  0xe9acbc, -- 鬼
  0xe4b8bd, -- 丽
  0xe8b7a8, -- 跨
  0xe9bb98, -- 默
  0xe68c96, -- 挖
  0xe993be, -- 链
  0xe689ab, -- 扫
  0xe5969d, -- 喝
  0xe8a28b, -- 袋
  0xe782ad, -- 炭
  0xe6b1a1, -- 污
  0xe5b995, -- 幕
  0xe8afb8, -- 诸
  0xe5bca7, -- 弧
  0xe58ab1, -- 励
  0xe6a285, -- 梅
  0xe5a5b6, -- 奶
  0xe6b481, -- 洁
  0xe781be, -- 灾
  0xe8889f, -- 舟
  0xe989b4, -- 鉴
  0xe88baf, -- 苯
  0xe8aebc, -- 讼
  0xe68ab1, -- 抱
  0xe6af81, -- 毁
  0xe68782, -- 懂
  0xe5af92, -- 寒
  0xe699ba, -- 智
  0xe59f94, -- 埔
  0xe5af84, -- 寄
  0xe5b18a, -- 届
  0xe8b783, -- 跃
  0xe6b8a1, -- 渡
  0xe68c91, -- 挑
  0xe4b8b9, -- 丹
  0xe889b0, -- 艰
  0xe8b49d, -- 贝
  0xe7a2b0, -- 碰
  0xe68b94, -- 拔
  0xe788b9, -- 爹
  0xe688b4, -- 戴
  0xe7a081, -- 码
  0xe6a2a6, -- 梦
  0xe88abd, -- 芽
  0xe78694, -- 熔
  0xe8b5a4, -- 赤
  0xe6b894, -- 渔
  0xe593ad, -- 哭
  0xe695ac, -- 敬
  0xe9a297, -- 颗
  0xe5a594, -- 奔
  0xe99385, -- 铅
  0xe4bbb2, -- 仲
  0xe8998e, -- 虎
  0xe7a880, -- 稀
  0xe5a6b9, -- 妹
  0xe4b98f, -- 乏
  0xe78f8d, -- 珍
  0xe794b3, -- 申
  0xe6a18c, -- 桌
  0xe981b5, -- 遵
  0xe58581, -- 允
  0xe99a86, -- 隆
  0xe89eba, -- 螺
  0xe4bb93, -- 仓
  0xe9ad8f, -- 魏
  0xe99490, -- 锐
  0xe69993, -- 晓
  0xe6b0ae, -- 氮
  0xe585bc, -- 兼
  0xe99a90, -- 隐
  0xe7a28d, -- 碍
  0xe8b5ab, -- 赫
  0xe68ba8, -- 拨
  0xe5bfa0, -- 忠
  0xe88283, -- 肃
  0xe7bcb8, -- 缸
  0xe789b5, -- 牵
  0xe68aa2, -- 抢
  0xe58d9a, -- 博
  0xe5b7a7, -- 巧
  0xe5a3b3, -- 壳
  0xe58584, -- 兄
  0xe69d9c, -- 杜
  0xe8aeaf, -- 讯
  0xe8af9a, -- 诚
  0xe7a2a7, -- 碧
  0xe7a5a5, -- 祥
  0xe69faf, -- 柯
  0xe9a1b5, -- 页
  0xe5b7a1, -- 巡
  0xe79fa9, -- 矩
  0xe682b2, -- 悲
  0xe7818c, -- 灌
  0xe9be84, -- 龄
  0xe4bca6, -- 伦
  0xe7a5a8, -- 票
  0xe5afbb, -- 寻
  0xe6a182, -- 桂
  0xe993ba, -- 铺
  0xe59ca3, -- 圣
  0xe68190, -- 恐
  0xe681b0, -- 恰
  0xe98391, -- 郑
  0xe8b6a3, -- 趣
  0xe68aac, -- 抬
  0xe88d92, -- 荒
  0xe885be, -- 腾
  0xe8b4b4, -- 贴
  0xe69f94, -- 柔
  0xe6bbb4, -- 滴
  0xe78c9b, -- 猛
  0xe99894, -- 阔
  0xe8be86, -- 辆
  0xe5a6bb, -- 妻
  0xe5a1ab, -- 填
  0xe692a4, -- 撤
  0xe582a8, -- 储
  0xe7adbe, -- 签
  0xe997b9, -- 闹
  0xe689b0, -- 扰
  0xe7b4ab, -- 紫
  0xe7a082, -- 砂
  0xe98092, -- 递
  0xe6888f, -- 戏
  0xe5908a, -- 吊
  0xe999b6, -- 陶
  0xe4bc90, -- 伐
  0xe59682, -- 喂
  0xe79697, -- 疗
  0xe793b6, -- 瓶
  0xe5a986, -- 婆
  0xe68a9a, -- 抚
  0xe88782, -- 臂
  0xe691b8, -- 摸
  0xe5bf8d, -- 忍
  0xe899be, -- 虾
  0xe89ca1, -- 蜡
  0xe982bb, -- 邻
  0xe883b8, -- 胸
  0xe5b7a9, -- 巩
  0xe68ca4, -- 挤
  0xe581b6, -- 偶
  0xe5bc83, -- 弃
  0xe6a7bd, -- 槽
  0xe58ab2, -- 劲
  0xe4b9b3, -- 乳
  0xe98293, -- 邓
  0xe59089, -- 吉
  0xe4bb81, -- 仁
  0xe78382, -- 烂
  0xe7a096, -- 砖
  0xe7a79f, -- 租
  0xe4b98c, -- 乌
  0xe888b0, -- 舰
  0xe4bcb4, -- 伴
  0xe7939c, -- 瓜
  0xe6b585, -- 浅
  0xe4b899, -- 丙
  0xe69a82, -- 暂
  0xe787a5, -- 燥
  0xe6a9a1, -- 橡
  0xe69fb3, -- 柳
  0xe8bfb7, -- 迷
  0xe69a96, -- 暖
  0xe7898c, -- 牌
  0xe7a7a7, -- 秧
  0xe88386, -- 胆
  0xe8afa6, -- 详
  0xe7b0a7, -- 簧
  0xe8b88f, -- 踏
  0xe793b7, -- 瓷
  0xe8b0b1, -- 谱
  0xe59186, -- 呆
  0xe5aebe, -- 宾
  0xe7b38a, -- 糊
  0xe6b49b, -- 洛
  0xe8be89, -- 辉
  0xe684a4, -- 愤
  0xe7ab9e, -- 竞
  0xe99a99, -- 隙
  0xe68092, -- 怒
  0xe7b298, -- 粘
  0xe4b983, -- 乃
  0xe7bbaa, -- 绪
  0xe882a9, -- 肩
  0xe7b18d, -- 籍
  0xe6958f, -- 敏
  0xe6b682, -- 涂
  0xe78699, -- 熙
  0xe79a86, -- 皆
  0xe4bea6, -- 侦
  0xe682ac, -- 悬
  0xe68e98, -- 掘
  0xe4baab, -- 享
  0xe7baa0, -- 纠
  0xe98692, -- 醒
  0xe78b82, -- 狂
  0xe99481, -- 锁
  0xe6b780, -- 淀
  0xe681a8, -- 恨
  0xe789b2, -- 牲
  0xe99cb8, -- 霸
  0xe788ac, -- 爬
  0xe8b58f, -- 赏
  0xe98086, -- 逆
  0xe78ea9, -- 玩
  0xe999b5, -- 陵
  0xe7a59d, -- 祝
  0xe7a792, -- 秒
  0xe6b599, -- 浙
  0xe8b28c, -- 貌
  0xe5bdb9, -- 役
  0xe5bdbc, -- 彼
  0xe68289, -- 悉
  0xe9b8ad, -- 鸭
  0xe8b68b, -- 趋
  0xe587a4, -- 凤
  0xe699a8, -- 晨
  0xe7959c, -- 畜
  0xe8be88, -- 辈
  0xe7a7a9, -- 秩
  0xe58db5, -- 卵
  0xe7bdb2, -- 署
  0xe6a2af, -- 梯
  0xe7828e, -- 炎
  0xe6bba9, -- 滩
  0xe6a38b, -- 棋
  0xe9a9b1, -- 驱
  0xe7ad9b, -- 筛
  0xe5b3a1, -- 峡
  0xe58692, -- 冒
  0xe595a5, -- 啥
  0xe5afbf, -- 寿
  0xe8af91, -- 译
  0xe6b5b8, -- 浸
  0xe6b389, -- 泉
  0xe5b8bd, -- 帽
  0xe8bf9f, -- 迟
  0xe7a185, -- 硅
  0xe79686, -- 疆
  0xe8b4b7, -- 贷
  0xe6bc8f, -- 漏
  0xe7a8bf, -- 稿
  0xe586a0, -- 冠
  0xe5aba9, -- 嫩
  0xe88381, -- 胁
  0xe88aaf, -- 芯
  0xe789a2, -- 牢
  0xe58f9b, -- 叛
  0xe89a80, -- 蚀
  0xe5a5a5, -- 奥
  0xe9b8a3, -- 鸣
  0xe5b2ad, -- 岭
  0xe7be8a, -- 羊
  0xe587ad, -- 凭
  0xe4b8b2, -- 串
  0xe5a198, -- 塘
  0xe7bb98, -- 绘
  0xe985b5, -- 酵
  0xe89e8d, -- 融
  0xe79b86, -- 盆
  0xe994a1, -- 锡
  0xe5ba99, -- 庙
  0xe7adb9, -- 筹
  0xe586bb, -- 冻
  0xe8be85, -- 辅
  0xe69184, -- 摄
  0xe8a2ad, -- 袭
  0xe7ad8b, -- 筋
  0xe68b92, -- 拒
  0xe5839a, -- 僚
  0xe697b1, -- 旱
  0xe992be, -- 钾
  0xe9b89f, -- 鸟
  0xe6bc86, -- 漆
  0xe6b288, -- 沈
  0xe79c89, -- 眉
  0xe7968f, -- 疏
  0xe6b7bb, -- 添
  0xe6a392, -- 棒
  0xe7a997, -- 穗
  0xe7a19d, -- 硝
  0xe99fa9, -- 韩
  0xe980bc, -- 逼
  0xe689ad, -- 扭
  0xe4bea8, -- 侨
  0xe58789, -- 凉
  0xe68cba, -- 挺
  0xe7a297, -- 碗
  0xe6a0bd, -- 栽
  0xe78292, -- 炒
  0xe69daf, -- 杯
  0xe682a3, -- 患
  0xe9a68f, -- 馏
  0xe58a9d, -- 劝
  0xe8b1aa, -- 豪
  0xe8bebd, -- 辽
  0xe58b83, -- 勃
  0xe9b8bf, -- 鸿
  0xe697a6, -- 旦
  0xe5908f, -- 吏
  0xe68b9c, -- 拜
  0xe78b97, -- 狗
  0xe59f8b, -- 埋
  0xe8be8a, -- 辊
  0xe68ea9, -- 掩
  0xe9a5ae, -- 饮
  0xe690ac, -- 搬
  0xe9aa82, -- 骂
  0xe8be9e, -- 辞
  0xe58bbe, -- 勾
  0xe689a3, -- 扣
  0xe4bcb0, -- 估
  0xe8928b, -- 蒋
  0xe7bb92, -- 绒
  0xe99bbe, -- 雾
  0xe4b888, -- 丈
  0xe69cb5, -- 朵
  0xe5a786, -- 姆
  0xe68b9f, -- 拟
  0xe5ae87, -- 宇
  0xe8be91, -- 辑
  0xe99995, -- 陕
  0xe99b95, -- 雕
  0xe581bf, -- 偿
  0xe89384, -- 蓄
  0xe5b487, -- 崇
  0xe589aa, -- 剪
  0xe580a1, -- 倡
  0xe58e85, -- 厅
  0xe592ac, -- 咬
  0xe9a9b6, -- 驶
  0xe896af, -- 薯
  0xe588b7, -- 刷
  0xe696a5, -- 斥
  0xe795aa, -- 番
  0xe8b58b, -- 赋
  0xe5a589, -- 奉
  0xe4bd9b, -- 佛
  0xe6b587, -- 浇
  0xe6bcab, -- 漫
  0xe69bbc, -- 曼
  0xe68987, -- 扇
  0xe99299, -- 钙
  0xe6a183, -- 桃
  0xe689b6, -- 扶
  0xe4bb94, -- 仔
  0xe8bf94, -- 返
  0xe4bf97, -- 俗
  0xe4ba8f, -- 亏
  0xe88594, -- 腔
  0xe99e8b, -- 鞋
  0xe6a3b1, -- 棱
  0xe8a686, -- 覆
  0xe6a186, -- 框
  0xe68284, -- 悄
  0xe58f94, -- 叔
  0xe6929e, -- 撞
  0xe9aa97, -- 骗
  0xe58b98, -- 勘
  0xe697ba, -- 旺
  0xe6b2b8, -- 沸
  0xe5ada4, -- 孤
  0xe59090, -- 吐
  0xe5ad9f, -- 孟
  0xe6b8a0, -- 渠
  0xe5b188, -- 屈
  0xe796be, -- 疾
  0xe5a699, -- 妙
  0xe6839c, -- 惜
  0xe4bbb0, -- 仰
  0xe78ba0, -- 狠
  0xe88380, -- 胀
  0xe8b090, -- 谐
  0xe68a9b, -- 抛
  0xe99c89, -- 霉
  0xe6a191, -- 桑
  0xe5b297, -- 岗
  0xe5989b, -- 嘛
  0xe8a1b0, -- 衰
  0xe79b97, -- 盗
  0xe6b897, -- 渗
  0xe8848f, -- 脏
  0xe8b596, -- 赖
  0xe6b68c, -- 涌
  0xe7949c, -- 甜
  0xe69bb9, -- 曹
  0xe99885, -- 阅
  0xe8828c, -- 肌
  0xe593a9, -- 哩
  0xe58e89, -- 厉
  0xe78383, -- 烃
  0xe7baac, -- 纬
  0xe6af85, -- 毅
  0xe698a8, -- 昨
  0xe4bcaa, -- 伪
  0xe79787, -- 症
  0xe785ae, -- 煮
  0xe58fb9, -- 叹
  0xe99289, -- 钉
  0xe690ad, -- 搭
  0xe88c8e, -- 茎
  0xe7acbc, -- 笼
  0xe985b7, -- 酷
  0xe581b7, -- 偷
  0xe5bc93, -- 弓
  0xe994a5, -- 锥
  0xe68192, -- 恒
  0xe69db0, -- 杰
  0xe59d91, -- 坑
  0xe9bcbb, -- 鼻
  0xe7bfbc, -- 翼
  0xe7bab6, -- 纶
  0xe58f99, -- 叙
  0xe78bb1, -- 狱
  0xe980ae, -- 逮
  0xe7bd90, -- 罐
  0xe7bb9c, -- 络
  0xe6a39a, -- 棚
  0xe68a91, -- 抑
  0xe886a8, -- 膨
  0xe894ac, -- 蔬
  0xe5afba, -- 寺
  0xe9aaa4, -- 骤
  0xe7a986, -- 穆
  0xe586b6, -- 冶
  0xe69eaf, -- 枯
  0xe5868c, -- 册
  0xe5b0b8, -- 尸
  0xe587b8, -- 凸
  0xe7bb85, -- 绅
  0xe59daf, -- 坯
  0xe789ba, -- 牺
  0xe784b0, -- 焰
  0xe8bdb0, -- 轰
  0xe6aca3, -- 欣
  0xe6998b, -- 晋
  0xe798a6, -- 瘦
  0xe5bea1, -- 御
  0xe994ad, -- 锭
  0xe994a6, -- 锦
  0xe4b8a7, -- 丧
  0xe697ac, -- 旬
  0xe994bb, -- 锻
  0xe59e84, -- 垄
  0xe6909c, -- 搜
  0xe68991, -- 扑
  0xe98280, -- 邀
  0xe4baad, -- 亭
  0xe985af, -- 酯
  0xe8bf88, -- 迈
  0xe88892, -- 舒
  0xe88486, -- 脆
  0xe985b6, -- 酶
  0xe997b2, -- 闲
  0xe5bfa7, -- 忧
  0xe9859a, -- 酚
  0xe9a1bd, -- 顽
  0xe7bebd, -- 羽
  0xe6b6a8, -- 涨
  0xe58db8, -- 卸
  0xe4bb97, -- 仗
  0xe999aa, -- 陪
  0xe8be9f, -- 辟
  0xe683a9, -- 惩
  0xe69dad, -- 杭
  0xe5a79a, -- 姚
  0xe8829a, -- 肚
  0xe68d89, -- 捉
  0xe9a398, -- 飘
  0xe6bc82, -- 漂
  0xe69886, -- 昆
  0xe6acba, -- 欺
  0xe590be, -- 吾
  0xe9838e, -- 郎
  0xe783b7, -- 烷
  0xe6b181, -- 汁
  0xe591b5, -- 呵
  0xe9a5b0, -- 饰
  0xe890a7, -- 萧
  0xe99b85, -- 雅
  0xe982ae, -- 邮
  0xe8bf81, -- 迁
  0xe78795, -- 燕
  0xe69292, -- 撒
  0xe5a7bb, -- 姻
  0xe8b5b4, -- 赴
  0xe5aeb4, -- 宴
  0xe783a6, -- 烦
  0xe580ba, -- 债
  0xe5b890, -- 帐
  0xe69691, -- 斑
  0xe99383, -- 铃
  0xe697a8, -- 旨
  0xe98687, -- 醇
  0xe891a3, -- 董
  0xe9a5bc, -- 饼
  0xe99b8f, -- 雏
  0xe5a7bf, -- 姿
  0xe68b8c, -- 拌
  0xe58285, -- 傅
  0xe885b9, -- 腹
  0xe5a6a5, -- 妥
  0xe68f89, -- 揉
  0xe8b4a4, -- 贤
  0xe68b86, -- 拆
  0xe6adaa, -- 歪
  0xe891a1, -- 葡
  0xe883ba, -- 胺
  0xe4b8a2, -- 丢
  0xe6b5a9, -- 浩
  0xe5bebd, -- 徽
  0xe69882, -- 昂
  0xe59eab, -- 垫
  0xe68ca1, -- 挡
  0xe8a788, -- 览
  0xe8b4aa, -- 贪
  0xe685b0, -- 慰
  0xe7bcb4, -- 缴
  0xe6b1aa, -- 汪
  0xe6858c, -- 慌
  0xe586af, -- 冯
  0xe8afba, -- 诺
  0xe5a79c, -- 姜
  0xe8b08a, -- 谊
  0xe587b6, -- 凶
  0xe58aa3, -- 劣
  0xe8afac, -- 诬
  0xe88080, -- 耀
  0xe6988f, -- 昏
  0xe8baba, -- 躺
  0xe79b88, -- 盈
  0xe9aa91, -- 骑
  0xe4b994, -- 乔
  0xe6baaa, -- 溪
  0xe4b89b, -- 丛
  0xe58da2, -- 卢
  0xe68ab9, -- 抹
  0xe997b7, -- 闷
  0xe592a8, -- 咨
  0xe588ae, -- 刮
  0xe9a9be, -- 驾
  0xe7bc86, -- 缆
  0xe6829f, -- 悟
  0xe69198, -- 摘
  0xe99392, -- 铒
  0xe68eb7, -- 掷
  0xe9a287, -- 颇
  0xe5b9bb, -- 幻
  0xe69f84, -- 柄
  0xe683a0, -- 惠
  0xe683a8, -- 惨
  0xe4bdb3, -- 佳
  0xe4bb87, -- 仇
  0xe8858a, -- 腊
  0xe7aa9d, -- 窝
  0xe6b6a4, -- 涤
  0xe58991, -- 剑
  0xe79ea7, -- 瞧
  0xe5a0a1, -- 堡
  0xe6b3bc, -- 泼
  0xe891b1, -- 葱
  0xe7bda9, -- 罩
  0xe99c8d, -- 霍
  0xe68d9e, -- 捞
  0xe8838e, -- 胎
  0xe88b8d, -- 苍
  0xe6bba8, -- 滨
  0xe4bfa9, -- 俩
  0xe68d85, -- 捅
  0xe6b998, -- 湘
  0xe7a08d, -- 砍
  0xe99c9e, -- 霞
  0xe982b5, -- 邵
  0xe89084, -- 萄
  0xe796af, -- 疯
  0xe6b7ae, -- 淮
  0xe98182, -- 遂
  0xe7868a, -- 熊
  0xe7b2aa, -- 粪
  0xe78398, -- 烘
  0xe5aebf, -- 宿
  0xe6a1a3, -- 档
  0xe68888, -- 戈
  0xe9a9b3, -- 驳
  0xe5ab82, -- 嫂
  0xe8a395, -- 裕
  0xe5be99, -- 徙
  0xe7aead, -- 箭
  0xe68d90, -- 捐
  0xe882a0, -- 肠
  0xe69291, -- 撑
  0xe69992, -- 晒
  0xe8bea8, -- 辨
  0xe6aebf, -- 殿
  0xe88eb2, -- 莲
  0xe6918a, -- 摊
  0xe69085, -- 搅
  0xe985b1, -- 酱
  0xe5b18f, -- 屏
  0xe796ab, -- 疫
  0xe59380, -- 哀
  0xe894a1, -- 蔡
  0xe5a0b5, -- 堵
  0xe6b2ab, -- 沫
  0xe79ab1, -- 皱
  0xe79585, -- 畅
  0xe58fa0, -- 叠
  0xe99881, -- 阁
  0xe88eb1, -- 莱
  0xe695b2, -- 敲
  0xe8be96, -- 辖
  0xe992a9, -- 钩
  0xe79795, -- 痕
  0xe59d9d, -- 坝
  0xe5b7b7, -- 巷
  0xe9a5bf, -- 饿
  0xe7a5b8, -- 祸
  0xe4b898, -- 丘
  0xe78e84, -- 玄
  0xe6ba9c, -- 溜
  0xe69bb0, -- 曰
  0xe980bb, -- 逻
  0xe5bdad, -- 彭
  0xe5b09d, -- 尝
  0xe58dbf, -- 卿
  0xe5a6a8, -- 妨
  0xe88987, -- 艇
  0xe5909e, -- 吞
  0xe99fa6, -- 韦
  0xe680a8, -- 怨
  0xe79fae, -- 矮
  0xe6ad87] -- 歇

/-- wordlists.go:16413-18462 `ChineseSimplifiedWordlist`. -/
def ChineseSimplifiedWordlist : List GoString := unpackWords ChineseSimplifiedWordlistPacked

end Btc
